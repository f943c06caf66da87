import Verif.Avail.Firmware

/-
The properties of availability (C31, C32, C33, C64, C65). A history is a list of operations; `run (clean conns) h`
is a station that was installed with the given connectors (`conns`: number of connectors of EVSE 1, 2, ...) and
went through the history `h`.
-/
set_option linter.constructorNameAsVariable false

namespace Verif.Avail

/-- Requests used in the examples. -/
def toStation (op : Bool) : Req := { evse := none, op := op }
def toEvse (e : Int) (op : Bool) : Req := { evse := some (e, none), op := op }
def toConn (e c : Int) (op : Bool) : Req := { evse := some (e, some c), op := op }

/-- Only used to evaluate examples. -/
instance (s : State) (t : Target) : Decidable (Busy s t) := decidable_of_iff _ (anyActive_iff s t)

instance (conns : List Nat) (t : Target) : Decidable (Exists conns t) :=
  match t with
  | .station => isTrue trivial
  | .evse e => inferInstanceAs (Decidable (1 ≤ e ∧ e ≤ conns.length))
  | .conn e c => inferInstanceAs (Decidable (1 ≤ e ∧ e ≤ conns.length ∧ 1 ≤ c ∧ c ≤ numConns conns e))

/-! ## C31: answers to ChangeAvailability are kept -/

/-- A request naming nothing that exists is rejected, or throws, and nothing changes. -/
theorem C31_unknown_partial (s : State) (r : Req) (h : ∀ t, Exists s.conns t → r.evse ≠ naming t) :
    step s (.change r) = { s with out := s.out ++ [.answer .rejected] } ∨
    step s (.change r) = { s with out := s.out ++ [.threw] } := by
  simp only [step]
  unfold change
  split
  · exact Or.inl rfl
  · exact Or.inr rfl
  · rename_i t ht
    obtain ⟨h1, h2⟩ := target_naming ht
    exact absurd h1 (h t h2)

example : (run (clean [2, 1]) [.change (toEvse 3 false)]).out = [.answer .rejected] := rfl

/-- An EVSE above the number of EVSEs, or a connector above the number of connectors of an existing EVSE, is
answered Rejected. -/
theorem C31_rejected (s : State) (op : Bool) :
    (∀ e c, (s.conns.length : Int) < e →
      step s (.change { evse := some (e, c), op := op }) = { s with out := s.out ++ [.answer .rejected] }) ∧
    (∀ (e : Nat) (c : Int), 1 ≤ e → e ≤ s.conns.length → (numConns s.conns e : Int) < c →
      step s (.change { evse := some ((e : Int), some c), op := op }) = { s with out := s.out ++ [.answer .rejected] }) := by
  constructor
  · intro e c h
    have ht : target s.conns { evse := some (e, c), op := op } = none := by
      unfold target
      dsimp only
      rw [if_pos (Or.inr h)]
    simp only [step]
    unfold change
    rw [ht]
    rfl
  · intro e c h1 h2 h3
    have ht : target s.conns { evse := some ((e : Int), some c), op := op } = none := by
      unfold target
      dsimp only
      rw [if_neg (by omega), if_neg (by omega), if_pos (by simpa using h3)]
    simp only [step]
    unfold change
    rw [ht]
    rfl

/-- EVSE 0, and connectors below 1, are not answered at all: the handler throws. -/
theorem C31_throws_violated :
    (run (clean [2]) [.change (toEvse 0 false)]).out = [.threw] ∧
    (run (clean [2]) [.change (toConn 1 0 false)]).out = [.threw] := ⟨rfl, rfl⟩

/-- Without a transaction in the way a request is answered Accepted, and exactly the named component gets the
requested status, at once and after a restart. -/
theorem C31_accepted (conns : List Nat) (h : List Op) (r : Req) (t : Target) (hr : r.evse = naming t)
    (he : Exists (run (clean conns) h).conns t) (hb : ¬ Busy (run (clean conns) h) t) :
    (∃ l, (step (run (clean conns) h) (.change r)).out = (run (clean conns) h).out ++ .answer .accepted :: l) ∧
    (∀ t', individual (step (run (clean conns) h) (.change r)) t' =
      if t' = t then r.op else individual (run (clean conns) h) t') ∧
    (∀ conns' resumed, individual (step (step (run (clean conns) h) (.change r)) (.boot conns' resumed)) t = r.op) := by
  have hso := (SOk.clean conns).run h
  refine ⟨?_, ?_, ?_⟩
  · rw [change_idle hr he hb]
    obtain ⟨_, _, _, _, _, _, l, hl, _⟩ := execute_fields t r.op true
      (emit (setSched (run (clean conns) h) (keyOf t) none) (.answer .accepted))
    exact ⟨l, by rw [hl]; simp [emit, setSched]⟩
  · intro t'
    rw [change_idle hr he hb, execute_individual]
    cases t' <;> rfl
  · intro conns' resumed
    show individual (boot conns' resumed _) t = r.op
    rw [individual_boot]
    exact (change_idle_facts hso hr he hb).1

example : Exists (run (clean [2, 1]) [.txStart 2 1]).conns (.conn 1 2) ∧
    ¬ Busy (run (clean [2, 1]) [.txStart 2 1]) (.conn 1 2) := by decide

/-- With a transaction in the way, a request that changes something is answered Scheduled (for the station:
a request to make it Inoperative). -/
theorem C31_scheduled_answer (s : State) (r : Req) (t : Target) (hr : r.evse = naming t) (he : Exists s.conns t)
    (hb : Busy s t) (hne : individual s t ≠ r.op) (hop : t = .station → r.op = false) :
    ∃ l, (step s (.change r)).out = s.out ++ .answer .scheduled :: l := by
  rw [change_busy hr he hb hne hop]
  obtain ⟨l, hl, _⟩ := (Temp.blockIdle t (emit (setSched s (keyOf t) (some { req := r, persist := true })) (.answer .scheduled))).out
  exact ⟨l, by rw [hl]; simp [emit, setSched]⟩

/-- While a request is Scheduled, the idle parts are Inoperative at once, and what is in use is left alone: for
the station the EVSEs, otherwise the connectors of the EVSE. -/
theorem C31_block (s : State) (r : Req) (t : Target) (hr : r.evse = naming t) (he : Exists s.conns t)
    (hb : Busy s t) (hne : individual s t ≠ r.op) (hop : t = .station → r.op = false) :
    (t = .station → ∀ e, Exists s.conns (.evse e) →
      (step s (.change r)).evse e = (if (s.tx e).isSome then s.evse e else false)) ∧
    (∀ e, evseOf t = some e → ∀ c, Exists s.conns (.conn e c) →
      (step s (.change r)).conn e c = (if s.tx e = some c then s.conn e c else false)) := by
  rw [change_busy hr he hb hne hop]
  generalize hs1 : emit (setSched s (keyOf t) (some { req := r, persist := true })) (.answer .scheduled) = s1
  have f1 : s1.conns = s.conns := by rw [← hs1]; rfl
  have f2 : s1.tx = s.tx := by rw [← hs1]; rfl
  have f3 : s1.evse = s.evse := by rw [← hs1]; rfl
  have f4 : s1.conn = s.conn := by rw [← hs1]; rfl
  constructor
  · rintro rfl e hex
    have key : ∀ (l : List Nat) (x : State), x.tx = s.tx →
        (l.foldl (fun s' e => if active s' e then s' else setEvse e false false s') x).evse e =
          if e ∈ l ∧ (s.tx e).isSome = false then false else x.evse e := by
      intro l
      induction l with
      | nil => intro x _; simp
      | cons a l ih =>
        intro x hx
        rw [List.foldl_cons]
        by_cases ha : active x a = true
        · rw [if_pos ha, ih x hx]
          have hat : (s.tx a).isSome = true := by rw [← hx]; exact ha
          by_cases hea : e = a
          · subst hea; simp [hat]
          · simp [hea]
        · rw [if_neg ha, ih _ (by rw [(setEvse_fields a false false x).2.2.2.2.2.2.2.2.1, hx]), (setEvse_fields a false false x).2.2.1]
          have hat : (s.tx a).isSome = false := by rw [← hx]; exact (Bool.not_eq_true _).mp ha
          by_cases hea : e = a
          · subst hea; simp [hat, upd]
          · simp [hea, upd]
    have hk := key (evseIds s1.conns) s1 f2
    have hm : e ∈ evseIds s1.conns := by rw [f1]; exact (mem_evseIds _ _).mpr hex
    show ((evseIds s1.conns).foldl (fun s' e => if active s' e then s' else setEvse e false false s') s1).evse e = _
    rw [hk, f3]
    cases hx : (s.tx e).isSome <;> simp [hm]
  · intro e hte c hex
    have key : ∀ (l : List Nat) (x : State), x.tx = s.tx →
        (l.foldl (fun s' c => if s'.tx e = some c then s' else setConn e c false false s') x).conn e c =
          if c ∈ l ∧ s.tx e ≠ some c then false else x.conn e c := by
      intro l
      induction l with
      | nil => intro x _; simp
      | cons a l ih =>
        intro x hx
        rw [List.foldl_cons]
        by_cases ha : x.tx e = some a
        · rw [if_pos ha, ih x hx]
          have hat : s.tx e = some a := by rw [← hx]; exact ha
          by_cases hea : c = a
          · subst hea; simp [hat]
          · simp [hea]
        · rw [if_neg ha, ih _ (by rw [(setConn_fields e a false false x).2.2.2.2.2.2.2.2.1, hx]), (setConn_fields e a false false x).2.2.2.1]
          have hat : s.tx e ≠ some a := by rw [← hx]; exact ha
          by_cases hea : c = a
          · subst hea; simp [hat, upd2]
          · simp [hea, upd2]
    have hk := key (connIds s1.conns e) s1 f2
    have hm : c ∈ connIds s1.conns e := by rw [f1]; exact (mem_connIds _ _ _).mpr ⟨hex.2.2.1, hex.2.2.2⟩
    unfold blockIdle
    rw [hte]
    show ((connIds s1.conns e).foldl (fun s' c => if s'.tx e = some c then s' else setConn e c false false s') s1).conn e c = _
    rw [hk, f4]
    by_cases hx : s.tx e = some c
    · simp [hx]
    · simp [hx, hm]

example : (run (clean [3]) [.txStart 1 2, .change (toEvse 1 false)]).conn 1 1 = false ∧
    (run (clean [3]) [.txStart 1 2, .change (toEvse 1 false)]).conn 1 2 = true := ⟨rfl, rfl⟩

/-- A request for an EVSE or a connector that was answered Scheduled is executed when the transaction ends:
then the component has the requested status, and has it after a restart.
Missing (see the violations below): requests for the same EVSE, firmware updates and restarts in between. -/
theorem C31_scheduled_partial (conns : List Nat) (h0 h : List Op) (r : Req) (t : Target) (e : Nat)
    (hr : r.evse = naming t) (he : Exists (run (clean conns) h0).conns t) (hk : evseOf t = some e)
    (hb : Busy (run (clean conns) h0) t) (hne : individual (run (clean conns) h0) t ≠ r.op)
    (hh : ∀ o ∈ h, isBoot o = false ∧ o ≠ .firmwarePrepare ∧ ¬ RequestsEvse t o ∧ o ≠ .txEnd e) :
    individual (run (run (clean conns) h0) (.change r :: h ++ [.txEnd e])) t = r.op ∧
    (∀ conns' resumed,
      individual (run (run (clean conns) h0) (.change r :: h ++ [.txEnd e, .boot conns' resumed])) t = r.op) := by
  have hso := (SOk.clean conns).run h0
  generalize run (clean conns) h0 = s at *
  have hkey : keyOf t = e := by simp [keyOf, hk]
  have hst : t ≠ .station := by rintro rfl; simp [evseOf] at hk
  have hem : e ∈ evseIds s.conns := by
    rw [mem_evseIds]
    cases t with
    | station => exact absurd rfl hst
    | evse e' => simp [evseOf] at hk; subst hk; exact he
    | conn e' c' => simp [evseOf] at hk; subst hk; exact ⟨he.1, he.2.1⟩
  have hbe : (s.tx e).isSome = true := by
    cases t with
    | station => exact absurd rfl hst
    | evse e' => simp [evseOf] at hk; subst hk; exact hb
    | conn e' c' => simp [evseOf] at hk; subst hk; exact hb
  -- after the request
  have hT := Temp.blockIdle t (emit (setSched s (keyOf t) (some { req := r, persist := true })) (.answer .scheduled))
  have h1 : (step s (.change r)).sched e = some { req := r, persist := true } ∧
      ((step s (.change r)).tx e).isSome = true ∧ (step s (.change r)).conns = s.conns ∧ SOk (step s (.change r)) := by
    refine ⟨?_, ?_, ?_, hso.step _⟩
    · rw [change_busy hr he hb hne (fun h => absurd h hst), hT.sched]
      simp [emit, setSched, hkey]
    · rw [change_busy hr he hb hne (fun h => absurd h hst), hT.tx]
      exact hbe
    · rw [change_busy hr he hb hne (fun h => absurd h hst), hT.conns]
      rfl
  obtain ⟨a1, a2, a3, a4⟩ := h1
  -- until the end of the transaction
  have h2 : ∀ (h : List Op) (x : State), x.sched e = some { req := r, persist := true } → (x.tx e).isSome = true →
      x.conns = s.conns → SOk x →
      (∀ o ∈ h, isBoot o = false ∧ o ≠ .firmwarePrepare ∧ ¬ RequestsEvse t o ∧ o ≠ .txEnd e) →
      (run x h).sched e = some { req := r, persist := true } ∧ ((run x h).tx e).isSome = true ∧
      (run x h).conns = s.conns ∧ SOk (run x h) := by
    intro h
    induction h with
    | nil => intro x b1 b2 b3 b4 _; exact ⟨b1, b2, b3, b4⟩
    | cons o h ih =>
      intro x b1 b2 b3 b4 hh
      obtain ⟨c1, c2, c3, c4⟩ := hh o (by simp)
      have hp := pending_step b4 (k := e) (by rw [b3]; exact hem) b1 b2 o c1 c2 (by
        rintro r' rfl t' ht' hname hkk
        refine c3 ?_
        show r'.evse.map Prod.fst = _
        rw [hname]
        exact (naming_fst t' s.conns (by rw [← b3]; exact ht') t he).mpr (hkk.trans hkey.symm)) c4
      exact ih (step x o) hp.1 hp.2 (by rw [step_conns' x o c1, b3]) (b4.step o)
        (fun o' ho' => hh o' (List.mem_cons_of_mem _ ho'))
  obtain ⟨d1, d2, d3, d4⟩ := h2 h (step s (.change r)) a1 a2 a3 a4 hh
  have hend := pending_end d4 (k := e) (by rw [d3]; exact hem) d1 d2 hr (by rw [d3]; exact he) hkey
  have hrun : run s (.change r :: h ++ [.txEnd e]) = step (run (step s (.change r)) h) (.txEnd e) := by
    simp [run, List.foldl_append]
  refine ⟨by rw [hrun]; exact hend.1, ?_⟩
  intro conns' resumed
  have hrun2 : run s (.change r :: h ++ [.txEnd e, .boot conns' resumed]) =
      boot conns' resumed (step (run (step s (.change r)) h) (.txEnd e)) := by
    simp [run, List.foldl_append]
    rfl
  rw [hrun2, individual_boot]
  exact hend.2.1

example : (run (clean [2, 1]) [.txStart 1 1, .change (toConn 1 1 false), .change (toEvse 2 false), .txStart 2 1, .txEnd 2,
    .txEnd 1]).conn 1 1 = false := rfl

/-- A request for the whole station that was answered Scheduled is executed as soon as no transaction runs,
whatever else happens except other requests for the station and a restart. -/
theorem C31_station_partial (conns : List Nat) (h0 h : List Op) (r : Req) (hr : r.evse = none) (hop : r.op = false)
    (hb : Busy (run (clean conns) h0) .station) (hne : (run (clean conns) h0).cs = true)
    (hh : ∀ o ∈ h, isBoot o = false ∧ ¬ Requests .station o)
    (hidle : ¬ Busy (run (run (clean conns) h0) (.change r :: h)) .station) :
    (run (run (clean conns) h0) (.change r :: h)).cs = false ∧
    (∀ conns' resumed, (run (run (clean conns) h0) (.change r :: h ++ [.boot conns' resumed])).cs = false) := by
  have hso := (SOk.clean conns).run h0
  generalize run (clean conns) h0 = s at *
  have hT := Temp.blockIdle .station (emit (setSched s (keyOf .station) (some { req := r, persist := true })) (.answer .scheduled))
  have hc := change_busy (t := .station) hr trivial hb (by rw [hop]; simpa [individual] using hne) (fun _ => hop)
  have h1 : Busy (step s (.change r)) .station ∧ (step s (.change r)).sched 0 = some { req := r, persist := true } := by
    rw [hc]
    refine ⟨?_, ?_⟩
    · simp only [Busy, hT.conns, hT.tx]; exact hb
    · rw [hT.sched]; simp [emit, setSched, keyOf, evseOf]
  have key : ∀ (h : List Op) (x : State), SOk x →
      ((Busy x .station ∧ x.sched 0 = some { req := r, persist := true }) ∨
        (x.cs = r.op ∧ persisted x .station = r.op ∧ x.sched 0 = none)) →
      (∀ o ∈ h, isBoot o = false ∧ ¬ Requests .station o) →
      ((Busy (run x h) .station ∧ (run x h).sched 0 = some { req := r, persist := true }) ∨
        ((run x h).cs = r.op ∧ persisted (run x h) .station = r.op ∧ (run x h).sched 0 = none)) := by
    intro h
    induction h with
    | nil => intro x _ hx _; exact hx
    | cons o h ih =>
      intro x hx1 hx2 hh
      exact ih (step x o) (hx1.step o) (station_step hx1 hr hx2 o (hh o (by simp)).1 (hh o (by simp)).2)
        (fun o' ho' => hh o' (List.mem_cons_of_mem _ ho'))
  have hk := key h (step s (.change r)) (hso.step _) (Or.inl h1) hh
  have hrun : run s (.change r :: h) = run (step s (.change r)) h := rfl
  rw [hrun] at hidle ⊢
  rcases hk with ⟨hk, _⟩ | ⟨k1, k2, _⟩
  · exact absurd hk hidle
  · refine ⟨by rw [k1, hop], ?_⟩
    intro conns' resumed
    have hrun2 : run s (.change r :: h ++ [.boot conns' resumed]) = boot conns' resumed (run (step s (.change r)) h) := by
      simp [run, List.foldl_append]
      rfl
    rw [hrun2]
    have := individual_boot conns' resumed (run (step s (.change r)) h) .station
    rw [k2, hop] at this
    exact this

example : Busy (run (clean [1, 1]) [.txStart 1 1, .txStart 2 1]) .station ∧
    ¬ Busy (run (run (clean [1, 1]) [.txStart 1 1, .txStart 2 1]) (.change (toStation false) ::
      [.txEnd 1, .change (toEvse 1 true), .txEnd 2])) .station := by decide

/-- (a) A request that is Accepted because nothing has to be done erases a Scheduled one of the same EVSE. -/
theorem C31_erased_violated :
    let s := run (clean [2]) [.txStart 1 1, .change (toEvse 1 false), .change (toConn 1 1 true), .txEnd 1]
    Out.answer .scheduled ∈ s.out ∧ s.evse 1 = true := by decide

/-- (b) An Operative request for an Inoperative station with a transaction is Accepted, but not executed. -/
theorem C31_operative_violated :
    let s := run (clean [1, 1]) [.change (toStation false), .txStart 1 1, .change (toStation true), .txEnd 1]
    s.cs = false ∧ (s.out.filter (fun o => decide (o = Out.answer .accepted))).length = 2 := by decide

/-- (c) A Scheduled request to make an EVSE Operative makes its idle connectors Inoperative, and they stay so. -/
theorem C31_block_violated :
    let s := run (clean [2]) [.change (toEvse 1 false), .txStart 1 1, .change (toEvse 1 true), .txEnd 1]
    s.evse 1 = true ∧ s.conn 1 2 = false := by decide

/-- (d) When a Scheduled request for the station is taken back, the idle EVSEs stay Inoperative. -/
theorem C31_cancel_violated :
    let s := run (clean [1, 1]) [.txStart 1 1, .change (toStation false), .change (toStation true), .txEnd 1]
    s.cs = true ∧ s.evse 2 = false := by decide

/-- (e) A Scheduled request is forgotten at a restart that resumes the transaction. -/
theorem C31_restart_violated :
    let s := run (clean [1]) [.txStart 1 1, .change (toEvse 1 false),
      .boot [1] (fun e => if e = 1 then some 1 else none), .txEnd 1]
    Out.answer .scheduled ∈ s.out ∧ s.evse 1 = true := by decide

/-- (f) The preparation of a firmware update replaces a Scheduled request: after the next restart its effect is
not there. -/
theorem C31_firmware_violated :
    let s := run (clean [1]) [.txStart 1 1, .change (toEvse 1 false), .firmwarePrepare, .txEnd 1, .boot [1] (fun _ => none)]
    Out.answer .scheduled ∈ s.out ∧ s.evse 1 = true := by decide

/-- (g) A Scheduled request for one connector is replaced by one for another connector of the EVSE. -/
theorem C31_replaced_violated :
    let s := run (clean [3]) [.txStart 1 1, .change (toConn 1 1 false), .change (toConn 1 2 true), .change (toConn 1 3 true),
      .txEnd 1]
    (s.out.filter (fun o => decide (o = Out.answer .scheduled))).length = 3 ∧ s.conn 1 1 = true := by decide

/-- (h) A request for a status the component only has temporarily is Accepted, but lost at a restart. -/
theorem C31_temporary_violated :
    let s := run (clean [2]) [.txStart 1 1, .change (toEvse 1 false), .change (toConn 1 2 false), .boot [2] (fun _ => none)]
    Out.answer .accepted ∈ s.out ∧ s.conn 1 2 = true := by decide

/-! ## C32: operational status -/

/-- A component is effectively Operative if and only if it and everything that contains it is individually
Operative. -/
theorem C32_effective (s : State) (e c : Nat) :
    (effEvse s e = true ↔ s.cs = true ∧ s.evse e = true) ∧
    (effConn s e c = true ↔ s.cs = true ∧ s.evse e = true ∧ s.conn e c = true) := by
  rw [effConn_eq, effEvse_eq]
  simp [and_assoc]

/-- From the start of the station on, whatever happens, the application is told every change of an effective
status and nothing but changes: for each component the calls of the callback differ from one to the next, and
the last one is the current effective status. `s0` is any state, in particular any contents of the database. -/
theorem C32_callbacks (s0 : State) (conns : List Nat) (resumed : Nat → Option Nat) (h : List Op)
    (hh : ∀ o ∈ h, isBoot o = false ∧ isStart o = false) :
    let s := run s0 (.boot conns resumed :: .start :: h)
    let log := s.out.drop s0.out.length
    Tracks (callsCs log) s.cs ∧
    (∀ e, Exists conns (.evse e) → Tracks (callsEvse log e) (s.cs && s.evse e)) ∧
    (∀ e c, Exists conns (.conn e c) → Tracks (callsConn log e c) (s.cs && s.evse e && s.conn e c)) := by
  have hb : CInv (boot conns resumed s0) := CInv.boot conns resumed s0
  have hk : KInv s0.out.length (trigCs false (boot conns resumed s0)) := KInv.start hb
  have hr := KInv.run h _ hk hh
  have hconns : (run (trigCs false (boot conns resumed s0)) h).conns = conns := by
    rw [run_conns _ h (fun o ho => (hh o ho).1), (Calls.trigCs false _).same.1]
    rfl
  have hrun : run s0 (.boot conns resumed :: .start :: h) = run (trigCs false (boot conns resumed s0)) h := rfl
  intro s log
  refine ⟨?_, ?_, ?_⟩
  · have := hr.t.cs
    rw [hr.c.cs] at this
    exact this
  · intro e he
    have hm : e ∈ evseIds (run (trigCs false (boot conns resumed s0)) h).conns := by
      rw [hconns]; exact (mem_evseIds _ _).mpr he
    have := hr.t.ev e hm
    rw [hr.c.ev e hm, effEvse_eq] at this
    exact this
  · intro e c he
    have hm : (e, c) ∈ allConns (run (trigCs false (boot conns resumed s0)) h).conns := by
      rw [hconns]; exact (mem_allConns _ _ _).mpr he
    have := hr.t.co e c hm
    rw [hr.c.co e c hm, effConn_eq, effEvse_eq] at this
    exact this

example : callsConn (run (clean [2, 1]) [.boot [2, 1] (fun _ => none), .start, .change (toEvse 1 false), .change (toStation false),
    .change (toStation true), .change (toEvse 1 true), .change (toConn 1 2 false)]).out 1 2 = [true, false, true, false] := rfl

/-- A status set by an executed request survives any later history, restarts included, that has no request
naming the same component: after the next restart the component has that status individually. -/
theorem C32_persists (conns : List Nat) (h0 h : List Op) (r : Req) (t : Target) (hr : r.evse = naming t)
    (he : Exists (run (clean conns) h0).conns t) (hb : ¬ Busy (run (clean conns) h0) t)
    (hh : ∀ o ∈ h, ¬ Requests t o) (conns' : List Nat) (resumed : Nat → Option Nat) :
    individual (run (run (clean conns) h0) (.change r :: h ++ [.boot conns' resumed])) t = r.op := by
  have hso := (SOk.clean conns).run h0
  obtain ⟨f1, f2⟩ := change_idle_facts hso hr he hb
  obtain ⟨g1, _⟩ := run_keep _ he h _ f2 hh
  have hrun : run (run (clean conns) h0) (.change r :: h ++ [.boot conns' resumed]) =
      boot conns' resumed (run (step (run (clean conns) h0) (.change r)) h) := by
    simp [run, List.foldl_append]
    rfl
  rw [hrun, individual_boot, g1, f1]

example : Exists (run (clean [2]) [.txStart 1 1, .txEnd 1]).conns (.conn 1 2) ∧
    ¬ Busy (run (clean [2]) [.txStart 1 1, .txEnd 1]) (.conn 1 2) := by decide

/-- Statuses set otherwise (while a request is Scheduled, for a firmware update, for a reset) are temporary:
whatever happens without a request naming the component, a restart brings the status it would have brought
before. -/
theorem C32_temporary (conns : List Nat) (h0 h : List Op) (t : Target)
    (he : Exists (run (clean conns) h0).conns t) (hpend : NoneFor t (run (clean conns) h0))
    (hh : ∀ o ∈ h, ¬ Requests t o) (conns' : List Nat) (resumed : Nat → Option Nat) :
    individual (run (run (clean conns) h0) (h ++ [.boot conns' resumed])) t =
    individual (run (run (clean conns) h0) [.boot conns' resumed]) t := by
  obtain ⟨g1, _⟩ := run_keep _ he h _ hpend hh
  have hrun : run (run (clean conns) h0) (h ++ [.boot conns' resumed]) =
      boot conns' resumed (run (run (clean conns) h0) h) := by
    simp [run, List.foldl_append]
    rfl
  have hrun2 : run (run (clean conns) h0) [.boot conns' resumed] = boot conns' resumed (run (clean conns) h0) := rfl
  rw [hrun, hrun2, individual_boot, individual_boot, g1]

example : (run (clean [2]) [.txStart 1 1, .firmwarePrepare, .block 1]).conn 1 2 = false ∧
    (run (clean [2]) [.txStart 1 1, .firmwarePrepare, .block 1, .boot [2] (fun _ => none)]).conn 1 2 = true := ⟨rfl, rfl⟩

/-! ## C33: status of connectors as reported to the CSMS -/

/-- Every StatusNotification carries the status the connector has when it is sent. -/
theorem C33_current (s : State) (o : Op) :
    ∃ new, (step s o).out = s.out ++ new ∧
      ∀ e c st, .status e c st ∈ new → st = toStatus ((step s o).flags e c) := notes_current s o

/-- After the station was accepted, in any later history without restart: let `o` be the last time the
station came online; if the connector had no plug event while reserved since then, and the station is online,
the last StatusNotification of the connector carries its current status. -/
theorem C33_up_to_date_partial (s0 : State) (h1 h2 : List Op) (o : Op) (e c : Nat)
    (hp : Exists s0.conns (.conn e c)) (hb1 : ∀ x ∈ h1, isBoot x = false) (hb2 : ∀ x ∈ h2, isBoot x = false)
    (ho : o = .accepted ∨ ∃ long, o = .reconnect long)
    (hplug : ¬ PlugWhileReserved e c (run s0 (.accepted :: h1 ++ [o])) h2)
    (hon : (run s0 (.accepted :: h1 ++ o :: h2)).online = true) :
    (notes (run s0 (.accepted :: h1 ++ o :: h2)).out e c).getLast? =
      some (toStatus ((run s0 (.accepted :: h1 ++ o :: h2)).flags e c)) := by
  have hm : (e, c) ∈ allConns s0.conns := (mem_allConns _ _ _).mpr hp
  have hconns : ∀ (h : List Op) (x : State), x.conns = s0.conns → (∀ y ∈ h, isBoot y = false) →
      (run x h).conns = s0.conns := fun h x hx hh => by rw [run_conns x h hh, hx]
  have n1 : NInv e c (step s0 .accepted) :=
    NInv.fold false (allConns s0.conns) { s0 with online := true } rfl hm (Or.inl rfl)
  have c1 : (step s0 .accepted).conns = s0.conns := step_conns' s0 _ rfl
  have l1 : ∀ (h : List Op) (x : State), (notes x.out e c).getLast? = some (x.lastReported e c) →
      (∀ y ∈ h, isBoot y = false) → (notes (run x h).out e c).getLast? = some ((run x h).lastReported e c) := by
    intro h
    induction h with
    | nil => intro x hx _; exact hx
    | cons y h ih =>
      intro x hx hh
      exact ih (step x y) (last_step hx y (hh y (by simp))) (fun z hz => hh z (List.mem_cons_of_mem _ hz))
  have l2 := l1 h1 _ n1.last hb1
  have c2 := hconns h1 _ c1 hb1
  have n2 : NInv e c (step (run (step s0 .accepted) h1) o) := by
    rcases ho with rfl | ⟨long, rfl⟩
    · exact NInv.fold false _ { run (step s0 .accepted) h1 with online := true } rfl
        (by show (e, c) ∈ allConns (run (step s0 .accepted) h1).conns; rw [c2]; exact hm) (Or.inl rfl)
    · exact NInv.fold (!long) _ { run (step s0 .accepted) h1 with online := true } rfl
        (by show (e, c) ∈ allConns (run (step s0 .accepted) h1).conns; rw [c2]; exact hm) (Or.inr l2)
  have c3 : (step (run (step s0 .accepted) h1) o).conns = s0.conns := by
    rw [step_conns' _ o (by rcases ho with rfl | ⟨_, rfl⟩ <;> rfl), c2]
  have hrun1 : run s0 (.accepted :: h1 ++ [o]) = step (run (step s0 .accepted) h1) o := by
    simp [run, List.foldl_append]
  have hrun2 : run s0 (.accepted :: h1 ++ o :: h2) = run (step (run (step s0 .accepted) h1) o) h2 := by
    simp [run, List.foldl_append]
  rw [hrun1] at hplug
  rw [hrun2] at hon ⊢
  generalize step (run (step s0 .accepted) h1) o = x at *
  have key : ∀ (h : List Op) (x : State), NInv e c x → x.conns = s0.conns → (∀ y ∈ h, isBoot y = false) →
      ¬ PlugWhileReserved e c x h → NInv e c (run x h) := by
    intro h
    induction h with
    | nil => intro x hx _ _ _; exact hx
    | cons y h ih =>
      intro x hx hxc hh hpl
      have hstep := hx.step y (hh y (by simp)) (by rw [hxc]; exact hm) (fun hq => hpl (Or.inl hq))
      exact ih (step x y) hstep (by rw [step_conns' x y (hh y (by simp)), hxc])
        (fun z hz => hh z (List.mem_cons_of_mem _ hz)) (fun hq => hpl (Or.inr hq))
  have hn := key h2 x n2 c3 hb2 hplug
  rw [hn.last, hn.cur hon]

example : notes (run (clean [2]) [.accepted, .event 1 1 .plugIn, .offline, .event 1 1 .error, .reconnect false,
    .event 1 1 .errorCleared, .event 1 1 .errorCleared]).out 1 1 = [.available, .occupied, .faulted, .occupied] := rfl

/-- The notifications an event causes, while online and up to date: one if the status changes, else none. -/
theorem C33_event (s : State) (e c : Nat) (ev : Event) (hex : Exists s.conns (.conn e c))
    (hon : s.online = true) (hup : s.lastReported e c = toStatus (s.flags e c))
    (hq : ¬ SilentPlug e c s (.event e c ev)) :
    (step s (.event e c ev)).out = s.out ++
      (if toStatus (evFlags ev (s.flags e c)) = toStatus (s.flags e c) then []
       else [.status e c (toStatus (evFlags ev (s.flags e c)))]) := by
  have hex' : exists_ s.conns e c = true := by
    rw [exists_iff, mem_allConns]; exact hex
  simp only [step]
  rw [if_pos hex']
  unfold event
  dsimp only
  rw [if_neg]
  · rcases report_cases true e c { s with flags := upd2 s.flags e c (evFlags ev (s.flags e c)) } with ⟨h1, h2⟩ | ⟨_, h2, h1⟩
    · rw [h1]
      rcases h2 with h2 | ⟨_, h2⟩
      · rw [show ({ s with flags := upd2 s.flags e c (evFlags ev (s.flags e c)) } : State).online = s.online from rfl, hon] at h2
        cases h2
      · have h3 : s.lastReported e c = toStatus (evFlags ev (s.flags e c)) := by
          have : s.lastReported e c = toStatus (upd2 s.flags e c (evFlags ev (s.flags e c)) e c) := h2
          simpa [upd2] using this
        rw [if_pos (by rw [← h3, hup])]
        simp
    · rw [h1]
      have h3 : s.lastReported e c ≠ toStatus (evFlags ev (s.flags e c)) := by
        have : s.lastReported e c ≠ toStatus (upd2 s.flags e c (evFlags ev (s.flags e c)) e c) := h2 rfl
        simpa [upd2] using this
      rw [if_neg (by rw [hup] at h3; exact fun h => h3 h.symm)]
      simp [emit, upd2]
  · rintro ⟨h1, h2⟩
    apply hq
    rcases h1 with rfl | rfl
    · exact ⟨h2, Or.inl rfl⟩
    · exact ⟨h2, Or.inr rfl⟩

/-- Faulted before Unavailable before Occupied before Reserved before Available. -/
theorem C33_precedence (f : Flags) :
    (f.faulted = true → toStatus f = .faulted) ∧
    (f.faulted = false → f.unavailable = true → toStatus f = .unavailable) ∧
    (f.faulted = false → f.unavailable = false → f.occupied = true → toStatus f = .occupied) ∧
    (f.faulted = false → f.unavailable = false → f.occupied = false → f.reserved = true → toStatus f = .reserved) ∧
    (f.faulted = false → f.unavailable = false → f.occupied = false → f.reserved = false → toStatus f = .available) := by
  obtain ⟨a, b, c, d⟩ := f
  cases a <;> cases b <;> cases c <;> cases d <;> simp [toStatus]

theorem since_snoc {on off : Event} (hne : on ≠ off) (e c : Nat) (h : List Op) (o : Op) :
    Since on off e c (h ++ [o]) ↔ o = .event e c on ∨ (Since on off e c h ∧ o ≠ .event e c off) := by
  constructor
  · rintro ⟨p, q, h1, h2⟩
    rcases List.eq_nil_or_concat q with rfl | ⟨q', x, rfl⟩
    · have := List.append_inj_right' h1 rfl
      simp at this
      exact Or.inl this
    · right
      rw [List.concat_eq_append] at h1 h2
      have h3 : h ++ [o] = (p ++ .event e c on :: q') ++ [x] := by rw [h1]; simp
      have h4 := List.append_inj_right' h3 rfl
      have h5 := List.append_inj_left' h3 rfl
      simp at h4
      subst h4
      exact ⟨⟨p, q', h5, fun hm => h2 (by simp [hm])⟩, fun he => h2 (by simp [he])⟩
  · rintro (rfl | ⟨⟨p, q, rfl, h2⟩, h3⟩)
    · exact ⟨h, [], rfl, by simp⟩
    · exact ⟨p, q ++ [o], by simp, by simp [h2]; exact fun he => h3 he.symm⟩

/-- What the events say about a connector since the start. -/
def Agrees (e c : Nat) (h : List Op) (f : Flags) : Prop :=
  (f.occupied = true ↔ Since .plugIn .plugOut e c h) ∧
  (f.reserved = true ↔ Since .reserve .reservationCleared e c h) ∧
  (f.faulted = true ↔ Since .error .errorCleared e c h) ∧
  (f.unavailable = true ↔ Since .unavailable .unavailableCleared e c h)

theorem flags_agree (s0 : State) (conns : List Nat) (resumed : Nat → Option Nat) (e c : Nat)
    (hex : Exists conns (.conn e c)) :
    ∀ (k : Nat) (h : List Op), h.length = k → (∀ x ∈ h, isBoot x = false) →
      Agrees e c h ((run (step s0 (.boot conns resumed)) h).flags e c) := by
  intro k
  induction k with
  | zero =>
    intro h hk _
    have : h = [] := List.length_eq_zero_iff.1 hk
    subst this
    simp [Agrees, Since, run, step, boot]
  | succ k ih =>
    intro h hk hb
    rcases List.eq_nil_or_concat h with h0 | ⟨l, o, h0⟩
    · subst h0; simp at hk
    subst h0
    rw [List.concat_eq_append] at *
    have hl : l.length = k := by simp at hk; omega
    have ha := ih l hl (fun x hx => hb x (by simp [hx]))
    have hc : (run (step s0 (.boot conns resumed)) l).conns = conns := by
      rw [run_conns _ l (fun x hx => hb x (by simp [hx]))]; rfl
    have hr : run (step s0 (.boot conns resumed)) (l ++ [o])
        = step (run (step s0 (.boot conns resumed)) l) o := by simp [run]
    rw [hr]
    generalize run (step s0 (.boot conns resumed)) l = s at ha hc
    have ho := hb o (by simp)
    by_cases hev : ∃ ev, o = .event e c ev
    · obtain ⟨ev, rfl⟩ := hev
      have hex' : exists_ s.conns e c = true := by
        rw [exists_iff, mem_allConns, hc]; exact hex
      have hf : (step s (.event e c ev)).flags e c = evFlags ev (s.flags e c) := by
        simp only [step]
        rw [if_pos hex', (event_fields e c ev s).2.2.2.2.1]
        simp [upd2]
      rw [hf]
      obtain ⟨a1, a2, a3, a4⟩ := ha
      refine ⟨?_, ?_, ?_, ?_⟩ <;> rw [since_snoc (by decide)]
      · rw [← a1]; cases ev <;> simp [evFlags]
      · rw [← a2]; cases ev <;> simp [evFlags]
      · rw [← a3]; cases ev <;> simp [evFlags]
      · rw [← a4]; cases ev <;> simp [evFlags]
    · have hf : (step s o).flags e c = s.flags e c := by
        by_cases hr : isReporting o = false
        · rw [(Silent.step s o hr).flags]
        cases o with
        | event e' c' ev =>
          simp only [step]
          split
          · rw [(event_fields e' c' ev s).2.2.2.2.1]
            simp only [upd2]
            rw [if_neg]
            rintro ⟨rfl, rfl⟩
            exact hev ⟨ev, rfl⟩
          · rfl
        | offline => rfl
        | accepted => simp only [step]; rw [(reportAll_fields _ _).2.2.2.2.1]
        | reconnect b => simp only [step]; rw [(reportAll_fields _ _).2.2.2.2.1]
        | triggerStatus e' c' =>
          simp only [step]
          split
          · rw [(report_fields _ _ _ _).2.2.2.2.1]
          · rfl
        | boot _ _ => simp [isBoot] at ho
        | _ => simp [isReporting] at hr
      rw [hf]
      obtain ⟨a1, a2, a3, a4⟩ := ha
      have hne : ∀ ev, o ≠ .event e c ev := fun ev he => hev ⟨ev, he⟩
      refine ⟨?_, ?_, ?_, ?_⟩ <;> rw [since_snoc (by decide)]
      · rw [← a1]; simp [hne]
      · rw [← a2]; simp [hne]
      · rw [← a3]; simp [hne]
      · rw [← a4]; simp [hne]

/-- The status of a connector (the one its notifications carry) follows from the events the application
reported for it since the start: Faulted if an error was raised and not cleared since; else Unavailable if it
was reported unavailable and not cleared since; else Occupied if the last plug event was a plug in; else
Reserved if a reservation was made and not cleared since; else Available. -/
theorem C33_status (s0 : State) (conns : List Nat) (resumed : Nat → Option Nat) (h : List Op) (e c : Nat)
    (hex : Exists conns (.conn e c)) (hb : ∀ x ∈ h, isBoot x = false) :
    let st := toStatus ((run (step s0 (.boot conns resumed)) h).flags e c)
    (st = .faulted ↔ Since .error .errorCleared e c h) ∧
    (¬ Since .error .errorCleared e c h → (st = .unavailable ↔ Since .unavailable .unavailableCleared e c h)) ∧
    (¬ Since .error .errorCleared e c h → ¬ Since .unavailable .unavailableCleared e c h →
      (st = .occupied ↔ Since .plugIn .plugOut e c h)) ∧
    (¬ Since .error .errorCleared e c h → ¬ Since .unavailable .unavailableCleared e c h →
      ¬ Since .plugIn .plugOut e c h → (st = .reserved ↔ Since .reserve .reservationCleared e c h)) := by
  intro st
  obtain ⟨a1, a2, a3, a4⟩ := flags_agree s0 conns resumed e c hex h.length h rfl hb
  rw [← a1, ← a2, ← a3, ← a4]
  show _ ∧ _
  generalize hf : (run (step s0 (.boot conns resumed)) h).flags e c = f
  have hst : st = toStatus f := by rw [← hf]
  rw [hst]
  obtain ⟨a, b, c, d⟩ := f
  cases a <;> cases b <;> cases c <;> cases d <;> simp [toStatus]

/-- A reserved connector that was plugged in and whose reservation is cleared is Occupied. -/
example : let h : List Op := [.event 1 1 .reserve, .event 1 1 .plugIn, .event 1 1 .reservationCleared]
    Since .plugIn .plugOut 1 1 h ∧ toStatus ((run (step (clean [1]) (.boot [1] (fun _ => none))) h).flags 1 1)
      = .occupied :=
  ⟨⟨[.event 1 1 .reserve], [.event 1 1 .reservationCleared], rfl, by simp⟩, by decide⟩

/-- The cable of a reserved connector is plugged out: the CSMS is not told, and goes on to see it Occupied. -/
theorem C33_reserved_violated :
    let s := run (clean [1]) [.accepted, .event 1 1 .plugIn, .event 1 1 .reserve, .event 1 1 .plugOut]
    s.online = true ∧ toStatus (s.flags 1 1) = .reserved ∧ (notes s.out 1 1).getLast? = some .occupied := by decide

/-! ## C64: operational statuses after a firmware update -/

/-- When an update is over, every connector has the status a restart would bring (the one the CSMS last set);
EVSEs and the station keep theirs. -/
theorem C64_restored (conns : List Nat) (h : List Op) (t : Target) (resumed : Nat → Option Nat) :
    let s := run (clean conns) h
    (∀ e c, t = .conn e c → Exists s.conns t →
      individual (step s .firmwareRestore) t = individual (step s (.boot s.conns resumed)) t) ∧
    ((∀ e c, t ≠ .conn e c) → individual (step s .firmwareRestore) t = individual s t) := by
  intro s
  have hf : DbFull s := (DbFull.clean conns).run h
  obtain ⟨h1, h2⟩ := restore_facts hf t
  refine ⟨?_, h2⟩
  intro e c ht he
  show individual (firmwareRestore s) t = individual (boot s.conns resumed s) t
  rw [h1 e c ht he, individual_boot]

/-- An update prepared while no transaction runs, and then over, leaves every operational status as it was
before, if no connector had a temporary status; in between anything may happen that is neither a request, nor a
restart, nor another update.
Missing (violated below): updates prepared while a transaction runs. -/
theorem C64_unchanged_partial (conns : List Nat) (h h' : List Op) (t : Target)
    (he : Exists (run (clean conns) h).conns t) (hb : ¬ Busy (run (clean conns) h) .station)
    (htemp : individual (run (clean conns) h) t =
      individual (step (run (clean conns) h) (.boot (run (clean conns) h).conns (fun _ => none))) t)
    (hh : ∀ o ∈ h', ordinary o = true) :
    individual (run (run (clean conns) h) (.firmwarePrepare :: h' ++ [.firmwareRestore])) t =
      individual (run (clean conns) h) t := by
  have hf : DbFull (run (clean conns) h) := (DbFull.clean conns).run h
  have hn := none_pending ((SOk.clean conns).run h) ((PendActive.clean conns).run (SOk.clean conns) h)
    ((PendStation.clean conns).run (SOk.clean conns) h) hb
  generalize run (clean conns) h = s at *
  obtain ⟨p1, p2, p3, p4, _, _, _, _, p9⟩ := firmwarePrepare_fields s
  have hn' : ∀ k, (firmwarePrepare s).sched k = none := by
    intro k
    rcases p9 k with hh | ⟨hk, ha, _⟩
    · rw [hh]; exact hn k
    · exact absurd ⟨k, ((mem_evseIds _ _).mp hk).1, ((mem_evseIds _ _).mp hk).2, ha⟩ hb
  obtain ⟨q1, q2, q3, q4⟩ := ordinary_keep h' (firmwarePrepare s) hn' hh
  have hf' : DbFull (run (firmwarePrepare s) h') := (hf.step .firmwarePrepare).run h'
  obtain ⟨h1, h2⟩ := restore_facts hf' t
  have hrun : run s (.firmwarePrepare :: h' ++ [.firmwareRestore]) = firmwareRestore (run (firmwarePrepare s) h') := by
    simp [run, List.foldl_append]
    rfl
  rw [hrun]
  cases t with
  | station => rw [h2 (by intro e c; simp)]; exact q2.trans p2
  | evse e => rw [h2 (by intro e c; simp)]; exact congrFun (q3.trans p3) e
  | conn e c =>
    rw [h1 e c rfl (by rw [q1, p1]; exact he), persisted_congr (q4.trans p4), htemp]
    exact (individual_boot _ _ s (.conn e c)).symm

example : (run (clean [2, 1]) [.change (toConn 1 2 false), .firmwarePrepare]).conn 1 1 = false ∧
    (run (clean [2, 1]) [.change (toConn 1 2 false), .firmwarePrepare, .firmwareRestore]).conn 1 1 = true ∧
    (run (clean [2, 1]) [.change (toConn 1 2 false), .firmwarePrepare, .firmwareRestore]).conn 1 2 = false := ⟨rfl, rfl, rfl⟩

/-- An EVSE whose transaction ran when the update was prepared stays Inoperative after the update. -/
theorem C64_evse_violated :
    (run (clean [1, 1]) [.txStart 1 1, .firmwarePrepare, .txEnd 1, .firmwareRestore]).evse 1 = false := rfl

/-- If the update fails before the transaction ends, the EVSE becomes Inoperative when it does. -/
theorem C64_failed_violated :
    (run (clean [1, 1]) [.txStart 1 1, .firmwarePrepare, .firmwareRestore]).evse 1 = true ∧
    (run (clean [1, 1]) [.txStart 1 1, .firmwarePrepare, .firmwareRestore, .txEnd 1]).evse 1 = false := ⟨rfl, rfl⟩

/-- Connectors blocked because a request is Scheduled are operative again, although the request still is
pending. -/
theorem C64_unblocks_violated :
    let s := run (clean [1, 2]) [.txStart 2 1, .change (toEvse 2 false), .firmwarePrepare, .firmwareRestore]
    s.conn 2 2 = true ∧ (run (clean [1, 2]) [.txStart 2 1, .change (toEvse 2 false)]).conn 2 2 = false := by decide

/-! ## C65: the application is told that all connectors are unavailable -/

/-- It is told so only when every connector is effectively Inoperative. -/
theorem C65_only (conns : List Nat) (h : List Op) (o : Op) (new : List Out)
    (hnew : (step (run (clean conns) h) o).out = (run (clean conns) h).out ++ new) (hm : .allUnavailable ∈ new) :
    let s := step (run (clean conns) h) o
    ∀ e c, Exists s.conns (.conn e c) → ¬ (s.cs = true ∧ s.evse e = true ∧ s.conn e c = true) := by
  have hso := (SOk.clean conns).run h
  generalize run (clean conns) h = s at *
  have fin : ∀ x : State, allInoperative x = true →
      ∀ e c, Exists x.conns (.conn e c) → ¬ (x.cs = true ∧ x.evse e = true ∧ x.conn e c = true) := by
    intro x hx e c he hall
    have := (allInoperative_iff x).mp hx e c ((mem_allConns _ _ _).mpr he)
    rw [((C32_effective x e c).2).mpr hall] at this
    cases this
  have calls : ∀ l : List Out, (∀ x ∈ l, isCall x = true) → Out.allUnavailable ∉ l := by
    intro l hl hx
    have := hl _ hx
    cases this
  have noneNew : ∀ l : List Out, (step s o).out = s.out ++ l → Out.allUnavailable ∉ l → False := by
    intro l hl hno
    rw [hl] at hnew
    have : l = new := List.append_cancel_left hnew
    rw [this] at hno
    exact hno hm
  have notif : ∀ x : State, allInoperative (notifyAll x) = allInoperative x := by
    intro x
    unfold notifyAll
    split <;> rfl
  -- one execution of a pending request
  have run1 : ∀ (k : Nat) (x : State), SOk x → ∃ l, (runScheduled k x).out = x.out ++ l ∧
      (Out.allUnavailable ∈ l → allInoperative (runScheduled k x) = true) := by
    intro k x hx
    cases hk : x.sched k with
    | none => exact ⟨[], by rw [runScheduled_none hk, List.append_nil], by simp⟩
    | some sc =>
      obtain ⟨t, ht, _, _⟩ := hx k sc hk
      by_cases hbz : Busy x t
      · exact ⟨[], by rw [runScheduled_busy hk ht hbz, List.append_nil], by simp⟩
      · rw [runScheduled_idle hk ht hbz]
        obtain ⟨_, _, _, _, _, _, l, hl, hcall⟩ := execute_fields t sc.req.op sc.persist x
        by_cases hall : allInoperative (setSched (execute t sc.req.op sc.persist x) k none) = true
        · refine ⟨l ++ [.allUnavailable], ?_, ?_⟩
          · unfold notifyAll
            rw [if_pos hall]
            show (execute t sc.req.op sc.persist x).out ++ _ = _
            rw [hl, List.append_assoc]
          · intro _
            rw [notif]; exact hall
        · refine ⟨l, ?_, ?_⟩
          · unfold notifyAll
            rw [if_neg hall]
            exact hl
          · intro hmem
            exact absurd hmem (calls l hcall)
  cases o with
  | change r =>
    exfalso
    simp only [step] at noneNew
    unfold change at noneNew
    split at noneNew
    · exact noneNew [.answer .rejected] rfl (by simp)
    · exact noneNew [.threw] rfl (by simp)
    · rename_i t ht
      split at noneNew
      · dsimp only at noneNew
        split at noneNew
        · exact noneNew [.answer .accepted] rfl (by simp)
        · obtain ⟨_, _, _, _, _, _, l, hl, hcall⟩ := execute_fields t r.op true (emit (setSched s (keyOf t) none) (.answer .accepted))
          refine noneNew (.answer .accepted :: l) (by rw [hl]; simp [emit, setSched]) ?_
          simp only [List.mem_cons, reduceCtorEq, false_or]
          exact calls l hcall
      · obtain ⟨l, hl, hcall⟩ := (Temp.blockIdle t (emit (setSched s (keyOf t) (some { req := r, persist := true })) (.answer .scheduled))).out
        refine noneNew (.answer .scheduled :: l) (by rw [hl]; simp [emit, setSched]) ?_
        simp only [List.mem_cons, reduceCtorEq, false_or]
        exact calls l hcall
  | txStart e c =>
    exfalso
    simp only [step] at noneNew
    split at noneNew
    · exact noneNew [] (by simp) (by simp)
    · exact noneNew [.threw] rfl (by simp)
  | txEnd e =>
    simp only [step] at hnew noneNew ⊢
    split at hnew
    · rename_i hcond
      exfalso
      rw [if_pos hcond] at noneNew
      exact noneNew [.threw] rfl (by simp)
    · rename_i hcond
      rw [if_neg hcond] at noneNew ⊢
      split at hnew
      · rename_i hact
        rw [if_pos hact]
        have hok0 : SOk { s with tx := fun i => if i = e then none else s.tx i } := hso
        obtain ⟨l1, a1, a2⟩ := run1 e _ hok0
        have hso1 := hok0.runScheduled e
        generalize runScheduled e { s with tx := fun i => if i = e then none else s.tx i } = s1 at *
        obtain ⟨l2, b1, b2⟩ := run1 0 s1 hso1
        have hl : l1 ++ l2 = new := by
          rw [b1, a1, List.append_assoc] at hnew
          exact List.append_cancel_left hnew
        rw [← hl] at hm
        apply fin
        rcases List.mem_append.mp hm with hm | hm
        · -- told after the first; the second can only make the station Inoperative
          have h1 := a2 hm
          cases hk : s1.sched 0 with
          | none => rw [runScheduled_none hk]; exact h1
          | some sc =>
            obtain ⟨t, ht, hkey, hop⟩ := hso1 0 sc hk
            have hst : t = .station := (keyOf_zero (target_naming ht).2).mp hkey
            subst hst
            by_cases hbz : Busy s1 .station
            · rw [runScheduled_busy hk ht hbz]; exact h1
            · rw [runScheduled_idle hk ht hbz, notif, allInoperative_iff]
              intro e' c' _
              rw [effConn_eq, effEvse_eq]
              have : (setSched (execute .station sc.req.op sc.persist s1) 0 none).cs = false := by
                show (setCs sc.req.op sc.persist s1).cs = false
                rw [(setCs_fields sc.req.op sc.persist s1).2.1]
                exact hop rfl
              rw [this]
              rfl
        · exact b2 hm
      · rename_i hact
        exfalso
        rw [if_neg hact] at noneNew
        exact noneNew [] (by simp) (by simp)
  | event e c ev =>
    exfalso
    simp only [step] at noneNew
    split at noneNew
    · unfold event at noneNew
      dsimp only at noneNew
      split at noneNew
      · exact noneNew [] (by simp) (by simp)
      · rcases report_cases true e c { s with flags := upd2 s.flags e c (evFlags ev (s.flags e c)) } with ⟨h1, _⟩ | ⟨_, _, h1⟩
        · rw [h1] at noneNew
          exact noneNew [] (by simp) (by simp)
        · rw [h1] at noneNew
          exact noneNew [_] rfl (by simp)
    · exact noneNew [.threw] rfl (by simp)
  | firmwarePrepare =>
    apply fin
    simp only [step] at hnew noneNew ⊢
    unfold firmwarePrepare at hnew noneNew ⊢
    have hblk : ∀ (x : State) (l : List Nat) , ∃ l', (l.foldl blockEvse x).out = x.out ++ l' ∧ ∀ y ∈ l', isCall y = true :=
      fun x l => (Temp.foldl blockEvse Temp.blockEvse l x).out
    split at hnew
    · rename_i hcond
      rw [if_pos hcond] at noneNew ⊢
      rw [notif]
      by_cases hall : allInoperative ((evseIds s.conns).foldl blockEvse s) = true
      · exact hall
      · exfalso
        obtain ⟨l, hl, hcall⟩ := hblk s (evseIds s.conns)
        unfold notifyAll at noneNew
        rw [if_neg hall] at noneNew
        exact noneNew l hl (calls l hcall)
    · rename_i hcond
      exfalso
      rw [if_neg hcond] at noneNew
      have : ∃ l', ((evseIds s.conns).foldl (fun s e => if !active s e then blockEvse s e else setSched s e (some (firmwareSched e))) s).out = s.out ++ l' ∧ ∀ y ∈ l', isCall y = true := by
        refine foldl_keep (fun x => ∃ l', x.out = s.out ++ l' ∧ ∀ y ∈ l', isCall y = true) _ _ ?_ s ⟨[], by simp, by simp⟩
        rintro x a _ ⟨l1, h1, h2⟩
        split
        · obtain ⟨l2, h3, h4⟩ := (Temp.blockEvse x a).out
          refine ⟨l1 ++ l2, by rw [h3, h1, List.append_assoc], ?_⟩
          intro y hy
          rcases List.mem_append.mp hy with hy | hy
          · exact h2 y hy
          · exact h4 y hy
        · exact ⟨l1, h1, h2⟩
      obtain ⟨l, hl, hcall⟩ := this
      exact noneNew l hl (calls l hcall)
  | firmwareRestore =>
    exfalso
    obtain ⟨l, hl, hcall⟩ := (Temp.firmwareRestore s).out
    exact noneNew l hl (calls l hcall)
  | block e =>
    exfalso
    simp only [step] at noneNew
    split at noneNew
    · obtain ⟨l, hl, hcall⟩ := (Temp.blockEvse s e).out
      exact noneNew l hl (calls l hcall)
    · exact noneNew [.threw] rfl (by simp)
  | offline => exact (noneNew [] (by simp [step]) (by simp)).elim
  | accepted =>
    exfalso
    obtain ⟨l, hl, hno⟩ : ∃ l, (step s .accepted).out = s.out ++ l ∧ Out.allUnavailable ∉ l := by
      show ∃ l, ((allConns s.conns).foldl (fun x p => report false p.1 p.2 x) { s with online := true }).out = s.out ++ l ∧ _
      refine foldl_keep (fun x => ∃ l, x.out = s.out ++ l ∧ Out.allUnavailable ∉ l) _ _ ?_ { s with online := true } ⟨[], by simp, by simp⟩
      rintro x p _ ⟨l, h1, h2⟩
      rcases report_cases false p.1 p.2 x with ⟨h3, _⟩ | ⟨_, _, h3⟩
      · exact ⟨l, by rw [h3]; exact h1, h2⟩
      · refine ⟨l ++ [_], by rw [h3]; simp [emit, h1]; rfl, ?_⟩
        simp [h2]
    exact noneNew l hl hno
  | reconnect b =>
    exfalso
    obtain ⟨l, hl, hno⟩ : ∃ l, (step s (.reconnect b)).out = s.out ++ l ∧ Out.allUnavailable ∉ l := by
      show ∃ l, ((allConns s.conns).foldl (fun x p => report (!b) p.1 p.2 x) { s with online := true }).out = s.out ++ l ∧ _
      refine foldl_keep (fun x => ∃ l, x.out = s.out ++ l ∧ Out.allUnavailable ∉ l) _ _ ?_ { s with online := true } ⟨[], by simp, by simp⟩
      rintro x p _ ⟨l, h1, h2⟩
      rcases report_cases (!b) p.1 p.2 x with ⟨h3, _⟩ | ⟨_, _, h3⟩
      · exact ⟨l, by rw [h3]; exact h1, h2⟩
      · refine ⟨l ++ [_], by rw [h3]; simp [emit, h1]; rfl, ?_⟩
        simp [h2]
    exact noneNew l hl hno
  | triggerStatus e c =>
    exfalso
    simp only [step] at noneNew
    split at noneNew
    · rcases report_cases false e c s with ⟨h1, _⟩ | ⟨_, _, h1⟩
      · rw [h1] at noneNew
        exact noneNew [] (by simp) (by simp)
      · rw [h1] at noneNew
        exact noneNew [_] rfl (by simp)
    · exact noneNew [.threw] rfl (by simp)
  | start =>
    exfalso
    obtain ⟨l, hl, hcall⟩ := (Calls.trigCs false s).out
    exact noneNew l hl (calls l hcall)
  | boot conns' r => exact (noneNew [] (by simp [step, boot]) (by simp)).elim

/-- A firmware update that finds no transaction running tells the application at once; one that finds some has
told it by the time none runs any more, whatever happens in between except requests of the CSMS, a restart and
another update.
Missing (violated below): requests of the CSMS in between. -/
theorem C65_told_partial (conns : List Nat) (h0 h : List Op) (hh : ∀ o ∈ h, ordinary o = true)
    (hidle : ¬ Busy (run (run (clean conns) h0) (.firmwarePrepare :: h)) .station) :
    .allUnavailable ∈ ((run (run (clean conns) h0) (.firmwarePrepare :: h)).out.drop (run (clean conns) h0).out.length) := by
  have hso := (SOk.clean conns).run h0
  have hpa := (PendActive.clean conns).run (SOk.clean conns) h0
  generalize run (clean conns) h0 = s at *
  by_cases hb : Busy s .station
  · obtain ⟨f1, f2⟩ := FInv.prepare hso hb hpa
    obtain ⟨g1, _⟩ := FInv.run h (firmwarePrepare s) f1 f2 hh
    rcases g1.told with ⟨e, he, h1, _⟩ | hm
    · exact absurd ⟨e, ((mem_evseIds _ _).mp he).1, ((mem_evseIds _ _).mp he).2, h1⟩ hidle
    · exact hm
  · -- told at once
    have hany : anyActive s none = false := by
      have : ¬ anyActive s none = true := fun h => hb ((anyActive_iff s .station).mp h)
      simpa using this
    have hfold : ∀ (l : List Nat) (x : State), (∀ e, (e ∈ l ∨ Blocked x e) → Blocked (l.foldl blockEvse x) e) := by
      intro l
      induction l with
      | nil => intro x e he; simpa using he
      | cons a l ih =>
        intro x e he
        rw [List.foldl_cons]
        refine ih (blockEvse x a) e ?_
        rcases he with he | he
        · rcases List.mem_cons.mp he with rfl | he
          · refine Or.inr (Or.inr ?_)
            intro c hc
            rw [(Temp.blockEvse x e).conns] at hc
            rw [(blockEvse_conn x e).1, if_pos ⟨rfl, hc⟩]
          · exact Or.inl he
        · exact Or.inr (he.block a)
    have hT := Temp.foldl blockEvse Temp.blockEvse (evseIds s.conns) s
    have hall : allInoperative ((evseIds s.conns).foldl blockEvse s) = true := by
      apply allInoperative_of_blocked
      intro e he
      rw [hT.conns] at he
      exact hfold _ s e (Or.inl he)
    obtain ⟨l, hl, _⟩ := hT.out
    have h1 : (firmwarePrepare s).out = s.out ++ (l ++ [.allUnavailable]) := by
      unfold firmwarePrepare
      rw [if_pos (by simp [hany])]
      unfold notifyAll
      rw [if_pos hall]
      simp only [emit]
      rw [hl, List.append_assoc]
    have mono : ∀ (h : List Op) (x : State), ∃ l', (run x h).out = x.out ++ l' := by
      intro h
      induction h with
      | nil => intro x; exact ⟨[], by simp [run]⟩
      | cons o h ih =>
        intro x
        obtain ⟨l1, a1, _⟩ := notes_current x o
        obtain ⟨l2, a2⟩ := ih (step x o)
        exact ⟨l1 ++ l2, by show (run (step x o) h).out = _; rw [a2, a1, List.append_assoc]⟩
    obtain ⟨l2, hl2⟩ := mono h (firmwarePrepare s)
    show .allUnavailable ∈ ((run (firmwarePrepare s) h).out.drop s.out.length)
    rw [hl2, h1, List.append_assoc, List.drop_left]
    simp

example : ¬ Busy (run (run (clean [1, 2]) [.txStart 1 1, .txStart 2 1]) (.firmwarePrepare ::
      [.txEnd 2, .event 1 1 .plugOut, .txEnd 1])) .station ∧
    (run (run (clean [1, 2]) [.txStart 1 1, .txStart 2 1]) (.firmwarePrepare :: [.txEnd 2, .txEnd 1])).out =
      [.connChanged 2 1 false, .connChanged 2 2 false].drop 2 ++
      [.evseChanged 2 false, .connChanged 2 1 false, .connChanged 2 2 false, .evseChanged 1 false, .connChanged 1 1 false,
        .allUnavailable] := by decide

/-- A request that is Accepted because nothing has to be done takes the block of a waiting update away: it is
never told that all connectors are unavailable. -/
theorem C65_cancelled_violated :
    let s := run (clean [1]) [.txStart 1 1, .firmwarePrepare, .change (toEvse 1 true), .txEnd 1]
    Out.allUnavailable ∉ s.out ∧ s.tx 1 = none ∧ s.conn 1 1 = true ∧ s.evse 1 = true ∧ s.cs = true := by decide

end Verif.Avail
