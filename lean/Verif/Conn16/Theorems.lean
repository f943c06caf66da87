import Verif.Conn16.Lemmas3

set_option linter.constructorNameAsVariable false

/-!
# Properties of OCPP 1.6 connectors

C34 (faults mask but do not lose the status), C66 (status reports are up to date), C67 (status
changes are those of OCPP 1.6), C68 (ChangeAvailability), C69 (RemoteStartTransaction), C70
(firmware updates).
-/

namespace Verif.Conn16

instance (n : Nat) (ci : Int) : Decidable (Exists n ci) := by unfold Exists; infer_instance
instance (n : Nat) (ci : Int) (c : Nat) : Decidable (Names n ci c) := by unfold Names; infer_instance
instance (s : State) (c : Nat) : Decidable (Waits s c) := by unfold Waits; infer_instance

/-! ## C34 -/

/-- **C34**: after any history of events and errors, the status of a connector is Faulted if some
active error is a fault, and otherwise the one the events alone would have produced. -/
theorem C34_visible (s0 : Status) (ops : List FOp) :
    ((∃ e, Active ops e ∧ e.fault = true) → visible (frun ⟨s0, []⟩ ops) = .faulted) ∧
    ((¬ ∃ e, Active ops e ∧ e.fault = true) →
      visible (frun ⟨s0, []⟩ ops) = visible (frun ⟨s0, []⟩ (eventsOnly ops))) := by
  have key := (errors_active s0 ops.length ops rfl).1
  have hf : isFaulted (frun ⟨s0, []⟩ ops) = true ↔ ∃ e, Active ops e ∧ e.fault = true := by
    rw [isFaulted_iff]
    constructor
    · rintro ⟨e, h1, h2⟩; exact ⟨e, (key e).1 h1, h2⟩
    · rintro ⟨e, h1, h2⟩; exact ⟨e, (key e).2 h1, h2⟩
  have hn : isFaulted (frun ⟨s0, []⟩ (eventsOnly ops)) = false := by
    cases h : isFaulted (frun ⟨s0, []⟩ (eventsOnly ops)) with
    | false => rfl
    | true =>
      rw [isFaulted_iff] at h
      obtain ⟨e, h1, _⟩ := h
      have h2 := active_error_mem (((errors_active s0 _ (eventsOnly ops) rfl).1 e).1 h1)
      simp [eventsOnly] at h2
  constructor
  · intro h; simp [visible, hf.2 h]
  · intro h
    have h' : isFaulted (frun ⟨s0, []⟩ ops) = false := by
      cases hh : isFaulted (frun ⟨s0, []⟩ ops) with
      | false => rfl
      | true => exact absurd (hf.1 hh) h
    simp only [visible, h', hn, if_false, Bool.false_eq_true]
    exact frun_state ops _ _ rfl

/-- a connector is charging, a fault comes and goes, the car pauses meanwhile -/
example : visible (frun ⟨.available, []⟩ [.event .usageInitiated, .event .startCharging,
      .error ⟨"a", 3, true, 0⟩, .event .pauseChargingEV]) = .faulted
    ∧ visible (frun ⟨.available, []⟩ [.event .usageInitiated, .event .startCharging,
      .error ⟨"a", 3, true, 0⟩, .event .pauseChargingEV, .clear "a"]) = .suspendedEV := by decide

/-- **C34**: a report is made exactly when the visible status changes, a new error is raised, an
active error is cleared and no fault is left, all errors are cleared, or a report is asked for; and
it carries the visible status. -/
theorem C34_reported (s0 : Status) (ops : List FOp) (o : FOp) :
    let m := frun ⟨s0, []⟩ ops
    let m' := frun ⟨s0, []⟩ (ops ++ [o])
    ((fstep m o).2.isSome = true ↔
      visible m' ≠ visible m ∨
      (∃ e, o = .error e ∧ ¬ ∃ x, Active ops x ∧ x.uuid = e.uuid) ∨
      (∃ u, o = .clear u ∧ (∃ x, Active ops x ∧ x.uuid = u) ∧ ¬ ∃ x, Active (ops ++ [o]) x ∧ x.fault = true) ∨
      o = .clearAll ∨ o = .trigger) ∧
    ∀ note, (fstep m o).2 = some note → note.status = visible m' := by
  intro m m'
  have hm' : m' = (fstep m o).1 := frun_snoc _ _ _
  have key := (errors_active s0 ops.length ops rfl).1
  have key' := (errors_active s0 (ops ++ [o]).length (ops ++ [o]) rfl).1
  have hf' : isFaulted m' = true ↔ ∃ e, Active (ops ++ [o]) e ∧ e.fault = true := by
    rw [isFaulted_iff]
    constructor
    · rintro ⟨e, h1, h2⟩; exact ⟨e, (key' e).1 h1, h2⟩
    · rintro ⟨e, h1, h2⟩; exact ⟨e, (key' e).2 h1, h2⟩
  have hany : ∀ u, m.errors.any (·.uuid == u) = true ↔ ∃ x, Active ops x ∧ x.uuid = u := by
    intro u
    simp only [List.any_eq_true, beq_iff_eq]
    constructor
    · rintro ⟨x, h1, h2⟩; exact ⟨x, (key x).1 h1, h2⟩
    · rintro ⟨x, h1, h2⟩; exact ⟨x, (key x).2 h1, h2⟩
  refine ⟨?_, fun note h => by rw [hm']; exact note_visible m o note h⟩
  constructor
  · intro h
    cases o with
    | clearAll => simp
    | trigger => simp
    | error e =>
      right; left
      refine ⟨e, rfl, fun hx => ?_⟩
      have := (hany e.uuid).2 hx
      simp [fstep, this] at h
    | clear u =>
      right; right; left
      by_cases hu : m.errors.any (·.uuid == u) = true
      · refine ⟨u, rfl, (hany u).1 hu, fun hx => ?_⟩
        have h2 := hf'.2 hx
        rw [hm'] at h2
        simp only [fstep, hu, Bool.not_true, if_false, Bool.false_eq_true] at h h2
        rw [if_pos h2] at h
        simp at h
      · simp [fstep, hu] at h
    | event ev =>
      left
      cases hn : next m.state ev with
      | none => simp [fstep, hn] at h
      | some st =>
        have hfs : isFaulted { m with state := st } = false := by
          cases hh : isFaulted { m with state := st } with
          | false => rfl
          | true => simp [fstep, hn, hh] at h
        have hfm : isFaulted m = false := hfs
        rw [hm']
        simp only [fstep, hn, visible, hfs, hfm, if_false, Bool.false_eq_true]
        exact next_ne hn
  · intro h
    cases h2 : (fstep m o).2 with
    | some _ => rfl
    | none =>
      exfalso
      rcases h with h | ⟨e, rfl, h⟩ | ⟨u, rfl, h3, h4⟩ | rfl | rfl
      · exact h (by rw [hm']; exact silent_visible m o h2)
      · have hu : ¬ m.errors.any (·.uuid == e.uuid) = true := fun hh => h ((hany _).1 hh)
        simp [fstep, hu] at h2
      · have hu := (hany u).2 h3
        have hf : ¬ isFaulted m' = true := fun hh => h4 (hf'.1 hh)
        rw [hm'] at hf
        simp only [fstep, hu, Bool.not_true, if_false, Bool.false_eq_true] at hf h2
        rw [if_neg hf] at h2
        simp at h2
      · simp [fstep] at h2
      · simp [fstep] at h2

/-- Clearing the second of two faults is reported, clearing the first is not. -/
example : (fstep (frun ⟨.charging, []⟩ [.error ⟨"a", 3, true, 0⟩, .error ⟨"b", 4, true, 1⟩]) (.clear "a")).2
      = none
    ∧ (fstep (frun ⟨.charging, []⟩ [.error ⟨"a", 3, true, 0⟩, .error ⟨"b", 4, true, 1⟩, .clear "a"])
      (.clear "b")).2 = some ⟨.charging, 0⟩ := by decide

/-- **C34**: the error code of a report is that of an active error; NoError is reported only when no
error is active (errors have a code other than NoError). -/
theorem C34_code (s0 : Status) (ops : List FOp) (o : FOp) (note : Note)
    (hc : ∀ e, .error e ∈ ops ++ [o] → e.code ≠ 0)
    (h : (fstep (frun ⟨s0, []⟩ ops) o).2 = some note) :
    (note.code = 0 ↔ ¬ ∃ e, Active (ops ++ [o]) e) ∧
    (note.code ≠ 0 → ∃ e, Active (ops ++ [o]) e ∧ e.code = note.code) := by
  have key' := (errors_active s0 (ops ++ [o]).length (ops ++ [o]) rfl).1
  rw [frun_snoc] at key'
  suffices H : (∃ e, Active (ops ++ [o]) e ∧ e.code = note.code) ∨
      (note.code = 0 ∧ ¬ ∃ e, Active (ops ++ [o]) e) by
    rcases H with ⟨e, h1, h2⟩ | ⟨h1, h2⟩
    · have h3 : note.code ≠ 0 := h2 ▸ hc e (active_error_mem h1)
      exact ⟨⟨fun h => absurd h h3, fun h => absurd ⟨e, h1⟩ h⟩, fun _ => ⟨e, h1, h2⟩⟩
    · exact ⟨⟨fun _ => h2, fun _ => h1⟩, fun h => absurd h1 h⟩
  generalize frun ⟨s0, []⟩ ops = m at h key'
  have lat : ∀ m' : Fsm, m' = (fstep m o).1 → note.code = latestCode m' →
      (∃ e, Active (ops ++ [o]) e ∧ e.code = note.code) ∨
      (note.code = 0 ∧ ¬ ∃ e, Active (ops ++ [o]) e) := by
    intro m' hm' hcode
    unfold latestCode at hcode
    cases hl : latest m' with
    | none =>
      rw [hl] at hcode
      right
      refine ⟨hcode, ?_⟩
      rintro ⟨e, he⟩
      have := (key' e).2 he
      rw [← hm', (latest_none m').1 hl] at this
      simp at this
    | some e =>
      rw [hl] at hcode
      left
      exact ⟨e, (key' e).1 (hm' ▸ (latest_spec m' e hl).1), hcode.symm⟩
  cases o with
  | event ev =>
    cases hn : next m.state ev with
    | none => simp [fstep, hn] at h
    | some st =>
      apply lat { m with state := st } (by simp [fstep, hn])
      simp only [fstep, hn] at h
      split at h
      · simp at h
      · simp only [Option.some.injEq] at h; rw [← h]
  | error e =>
    left
    refine ⟨e, (key' e).1 ?_, ?_⟩
    · simp only [fstep] at h ⊢
      split at h
      · simp at h
      · rename_i hu; rw [if_neg hu]; simp
    · simp only [fstep] at h
      split at h
      · simp at h
      · simp only [Option.some.injEq] at h; rw [← h]
  | clear u =>
    simp only [fstep] at h
    split at h
    · simp at h
    · rename_i hu
      apply lat { m with errors := m.errors.filter (fun e => !(e.uuid == u)) }
        (by simp only [fstep]; rw [if_neg hu])
      simp only at h
      split at h
      · simp at h
      · simp only [Option.some.injEq] at h; rw [← h]
  | clearAll =>
    right
    simp only [fstep, Option.some.injEq] at h
    refine ⟨by rw [← h], ?_⟩
    rintro ⟨e, he⟩
    have := (key' e).2 he
    simp [fstep] at this
  | trigger =>
    apply lat m rfl
    simp only [fstep, Option.some.injEq] at h
    rw [← h]

example : (fstep (frun ⟨.charging, []⟩ [.error ⟨"a", 3, false, 0⟩]) (.event .pauseChargingEV)).2
    = some ⟨.suspendedEV, 3⟩ := by decide

/-- **C34 (violated)**: the application programming interface looks at the masked status when a
session starts, so a fault can lose the reservation: the same calls leave the connector Reserved
without the fault and Preparing with it, although the fault was cleared. -/
theorem C34_reserved_violated :
    let calls := fun f : List Op => [Op.reservationStart 1] ++ f ++ [.sessionStarted 1 false]
    getState (run (clean 1) (calls [])) 1 = .reserved ∧
    getState (run (clean 1) (calls [.error 1 ⟨"a", 3, true, 0⟩] ++ [.clear 1 "a"])) 1 = .preparing := by
  decide

/-! ## C66 -/

/-- **C66**: a StatusNotification carries the status the connector has when it is sent. -/
theorem C66_truthful (n : Nat) (ops : List Op) (o : Op) (c : Nat) (note : Note)
    (h : (sent (step (run (clean n) ops) o).out c).getLast? = some note)
    (hnew : sent (step (run (clean n) ops) o).out c ≠ sent (run (clean n) ops).out c) :
    note.status = getState (run (clean n) ops) c := by
  have ht := truth_run ops _ (truth_clean n)
  have hle : ∀ c note, (run (clean n) ops).timer c = some note → c ≤ (run (clean n) ops).n := by
    have C : Closed (fun _ _ => True) (fun s : State => ∀ c note, s.timer c = some note → c ≤ s.n) :=
      { up := trivial, down := trivial, trig := fun _ => trivial
        submit := fun c o s _ h => by
          intro c' note hn
          rw [(submit_fields c o s).1]
          by_cases hc : c' = c
          · subst hc
            by_cases hl : c' ≤ s.n
            · exact hl
            · rw [submit_absent o s hl] at hn; exact h _ _ hn
          · rw [(submit_fsm_ne o s hc).2] at hn; exact h _ _ hn
        emit := fun _ _ _ h => h
        fields := fun s s' h1 _ h3 _ h => by intro c note hn; rw [h3] at hn; rw [h1]; exact h c note hn }
    suffices H : ∀ (ops : List Op) (s : State), (∀ c note, s.timer c = some note → c ≤ s.n) →
        ∀ c note, (run s ops).timer c = some note → c ≤ (run s ops).n by
      exact H ops (clean n) (by simp [clean])
    intro ops
    induction ops with
    | nil => intro s h; exact h
    | cons o ops ih =>
      intro s h
      apply ih
      by_cases h1 : ∃ c, o = .timer c
      · obtain ⟨c, rfl⟩ := h1
        simp only [step]
        split
        · exact h
        · intro c' note hn
          simp only [emit, upd] at hn
          split at hn
          · simp at hn
          · exact h _ _ hn
      by_cases h2 : ∃ c, o = .trigger c
      · obtain ⟨c, rfl⟩ := h2; simp only [step]; split <;> exact h
      by_cases h3 : o = .restart
      · subst h3
        intro c note hn
        rw [show step s .restart = boot s from rfl, (boot_fields s).2.2.2.2.2.2.1] at hn
        simp at hn
      exact C.step o s h (fun _ _ => trivial) (fun c e => h1 ⟨c, e⟩) (fun c e => h2 ⟨c, e⟩) h3
  generalize run (clean n) ops = s at *
  by_cases h1 : ∃ x, o = .timer x
  · obtain ⟨x, rfl⟩ := h1
    simp only [step] at h hnew
    split at h
    · rename_i hx; rw [hx] at hnew; exact absurd rfl hnew
    · rename_i note' hn
      rw [hn] at hnew
      by_cases hc : x = c
      · subst hc
        have e : sent (emit { s with timer := upd s.timer x none } (.status x note')).out x
            = sent s.out x ++ [note'] := by
          show sent (s.out ++ [_]) x = _
          rw [sent_append]; simp [sent]
        rw [e] at h
        simp only [List.getLast?_append, List.getLast?_singleton, Option.some_or, Option.some.injEq] at h
        subst h
        rw [getState, if_pos (hle _ _ hn)]
        exact ht x note' hn
      · exact absurd (sent_other s.out _ c (by intro n e; simp at e; exact hc e.1)) hnew
  by_cases h2 : ∃ x, o = .trigger x
  · obtain ⟨x, rfl⟩ := h2
    simp only [step] at h hnew
    split at h
    · rename_i hx
      rw [if_pos hx] at hnew
      by_cases hc : x = c
      · subst hc
        have e : sent (emit s (.status x ⟨visible (s.fsm x), latestCode (s.fsm x)⟩)).out x
            = sent s.out x ++ [⟨visible (s.fsm x), latestCode (s.fsm x)⟩] := by
          show sent (s.out ++ [_]) x = _
          rw [sent_append]; simp [sent]
        rw [e] at h
        simp only [List.getLast?_append, List.getLast?_singleton, Option.some_or, Option.some.injEq] at h
        subst h
        rw [getState, if_pos hx]
      · exact absurd (sent_other s.out _ c (by intro n e; simp at e; exact hc e.1)) hnew
    · rename_i hx; rw [if_neg hx] at hnew; exact absurd rfl hnew
  by_cases h3 : o = .restart
  · subst h3
    have e : sent (boot s).out c = sent s.out c := by
      rw [(boot_fields s).2.2.2.2.2.2.2.2, sent_append]
      have : sent ((List.range (s.n + 1)).map (fun c => if s.db c then Out.enable c else .disable c)) c = [] := by
        generalize List.range (s.n + 1) = l
        induction l with
        | nil => rfl
        | cons a l ih => cases hd : s.db a <;> simp [sent, hd] at ih ⊢ <;> exact ih
      rw [this]; simp
    exact absurd e hnew
  have C : Closed (fun _ _ => True) (fun s' : State => sent s'.out c = sent s.out c) :=
    { up := trivial, down := trivial, trig := fun _ => trivial
      submit := fun c' o s' _ h => by rw [(submit_fields c' o s').2.2.2.2.2.2]; exact h
      emit := fun o s' ho h => by
        show sent (s'.out ++ [o]) c = _
        rw [sent_other _ _ _ (ho c)]; exact h
      fields := fun _ _ _ _ _ h4 h => by rw [h4]; exact h }
  exact absurd (C.step o s rfl (fun _ _ => trivial) (fun c e => h1 ⟨c, e⟩) (fun c e => h2 ⟨c, e⟩) h3) hnew

example : (sent (step (run (clean 1) [.sessionStarted 1 true]) (.timer 1)).out 1).getLast?
    = some ⟨.preparing, 0⟩ := by decide

/-- **C66**: once the statuses of all connectors have been reported after the start, the CSMS is up
to date whenever no report is waiting for its timer; and a waiting report has the current status. -/
theorem C66_up_to_date (n : Nat) (p q : List Op) (hr : .restart ∉ q) (c : Nat) (hc : c ≤ n) :
    let s := run (clean n) (p ++ .reportAll :: q)
    match s.timer c with
    | some note => note.status = getState s c
    | none => (sent s.out c).getLast?.map (·.status) = some (getState s c) := by
  intro s
  have hs : s = run (step (run (clean n) p) .reportAll) q := by simp [s, run_append, run_cons]
  have ht := truth_run p _ (truth_clean n)
  have ht' := truth_step _ .reportAll ht
  have hu : UpTo (step (run (clean n) p) .reportAll) := fun c' hc' => by
    left
    exact triggerAll_timer _ c' (by rw [step_n] at hc'; exact hc')
  have h1 := upTo_run q _ ht' hu hr
  have h2 := truth_run q _ ht'
  rw [← hs] at h1 h2
  have hn : s.n = n := by rw [hs, run_n, step_n, run_n]; rfl
  have hg : getState s c = visible (s.fsm c) := by rw [getState, if_pos (hn ▸ hc)]
  rw [hg]
  cases hm : s.timer c with
  | some note => exact h2 c note hm
  | none =>
    rcases h1 c (hn ▸ hc) with h | h
    · rw [hm] at h; simp at h
    · exact h

example : let s := run (clean 1) ([] ++ .reportAll :: [.timer 1, .sessionStarted 1 true, .resume 1, .timer 1])
    s.timer 1 = none ∧ getState s 1 = .charging ∧ sent s.out 1 = [⟨.available, 0⟩, ⟨.charging, 0⟩] := by
  decide

/-! ## C67 -/

/-- **C67**: whatever happens, except a restart, the status of a connector stays or changes as OCPP
1.6 allows. -/
theorem C67_transitions (n : Nat) (ops : List Op) (o : Op) (hr : o ≠ .restart) (c : Nat)
    (h1 : 1 ≤ c) (h2 : c ≤ n) :
    let a := getState (run (clean n) ops) c
    let b := getState (run (clean n) (ops ++ [o])) c
    b = a ∨ Allowed a b := by
  intro a b
  have hn : (run (clean n) ops).n = n := run_n ops (clean n)
  have ea : a = visible ((run (clean n) ops).fsm c) := by simp [a, getState, hn, h2]
  have eb : b = visible ((step (run (clean n) ops) o).fsm c) := by
    simp [b, getState, run_append, run_cons, run, step_n]
    have hn' : (List.foldl step (clean n) ops).n = n := hn
    intro h; rw [hn'] at h; omega
  rw [ea, eb]
  rcases step_fsm (run (clean n) ops) o c h1 hr with h | ⟨fo, h⟩
  · rw [h]; exact Or.inl rfl
  · rw [h]; exact fstep_allowed _ fo

/-- the table excludes something: a connector being prepared does not become Unavailable -/
example : ¬ Allowed .preparing .unavailable ∧ ¬ Allowed .finishing .charging ∧ ¬ Allowed .reserved .charging := by
  refine ⟨?_, ?_, ?_⟩ <;> simp [Allowed]

/-- **C67 (partial)**: connector 0 is only ever Available, Unavailable or Faulted, if the application
makes no calls about sessions or reservations for connector 0. -/
theorem C67_zero_partial (n : Nat) (ops : List Op) (h : ∀ o ∈ ops, zeroOk o = true) :
    getState (run (clean n) ops) 0 ∈ [Status.available, .unavailable, .faulted] := by
  suffices H : ∀ (ops : List Op) (s : State), (∀ o ∈ ops, zeroOk o = true) → s.tx 0 = false →
      ((s.fsm 0).state = .available ∨ (s.fsm 0).state = .unavailable) →
      (((run s ops).fsm 0).state = .available ∨ ((run s ops).fsm 0).state = .unavailable) by
    have h1 := H ops (clean n) h rfl (Or.inl rfl)
    rw [getState, if_pos (by omega), visible]
    split
    · simp
    · rcases h1 with h1 | h1 <;> simp [h1]
  intro ops
  induction ops with
  | nil => intro s _ _ h; exact h
  | cons o ops ih =>
    intro s ho htx hs
    have htx' : (step s o).tx 0 = false := by
      have sub : ∀ c fo (s1 : State), s1.tx 0 = false → (submit c fo s1).tx 0 = false :=
        fun c fo s1 h => by rw [(submit_fields c fo s1).2.1]; exact h
      have fp : ∀ s1 : State, s1.tx 0 = false → (if s1.fwPending then firmwarePrepare s1 else s1).tx 0 = false := by
        intro s1 h
        split
        · rw [(firmwarePrepare_fields s1).2.1]; exact h
        · exact h
      cases o with
      | sessionStarted c a =>
        simp only [step]; split
        · exact sub _ _ _ htx
        · exact htx
      | sessionStopped c =>
        have h1 : (executeQueued c s).tx 0 = false := by rw [(executeQueued_fields c s).2.1]; exact htx
        simp only [step]; split
        · exact sub _ _ _ h1
        · exact h1
      | txStarted c =>
        simp only [step]; split
        · rename_i hc
          have h1 : ({ s with tx := upd s.tx c true } : State).tx 0 = false := by
            simp only [upd]; rw [if_neg (by omega)]; exact htx
          unfold useReserved
          split
          · exact sub _ _ _ h1
          · exact h1
        · exact htx
      | txStopped c b =>
        simp only [step]; split
        · have h1 : ({ s with waiting := s.waiting ++ [c], tx := upd s.tx c false } : State).tx 0 = false := by
            simp only [upd]; split
            · rfl
            · exact htx
          unfold finish
          split
          · exact h1
          · exact sub _ _ _ h1
        · exact htx
      | stopConf c =>
        simp only [step]
        apply fp
        unfold confirmed
        split
        · rw [(executeQueued_fields _ _).2.1]; exact htx
        · exact htx
      | change ci op => rw [show step s (.change ci op) = change ci op s from rfl, (change_fields ci op s).1]; exact htx
      | remote r => rw [show step s (.remote r) = remoteStart r s from rfl, (remote_fields r s).1]; exact htx
      | firmware st => rw [show step s (.firmware st) = firmware st s from rfl, (firmware_fields st s).1]; exact htx
      | timer c => simp only [step]; split <;> exact htx
      | trigger c => simp only [step]; split <;> exact htx
      | restart => rw [show step s .restart = boot s from rfl, (boot_fields s).2.2.2.1]
      | reportAll =>
        have key : ∀ (l : List Nat) (s : State), s.tx 0 = false →
            (l.foldl (fun s c => submit c .trigger s) s).tx 0 = false := by
          intro l
          induction l with
          | nil => intro s h; exact h
          | cons a l ih => intro s h; exact ih _ (sub _ _ _ h)
        exact key _ s htx
      | _ => exact sub _ _ _ htx
    have ho' := ho o (by simp)
    refine ih (step s o) (fun o' h' => ho o' (by simp [h'])) htx' ?_
    by_cases h1 : ∃ c, o = .timer c
    · obtain ⟨c, rfl⟩ := h1; simp only [step]; split <;> exact hs
    by_cases h2 : ∃ c, o = .trigger c
    · obtain ⟨c, rfl⟩ := h2; simp only [step]; split <;> exact hs
    by_cases h3 : o = .restart
    · subst h3
      rw [show step s .restart = boot s from rfl, (boot_fields s).2.2.1]
      simp only
      split <;> simp
    by_cases h4 : ∃ b, o = .txStopped 0 b
    · obtain ⟨b, rfl⟩ := h4
      simp only [step, htx, if_false, Bool.false_eq_true]; exact hs
    refine closed_zero.step o s hs ?_ (fun c e => h1 ⟨c, e⟩) (fun c e => h2 ⟨c, e⟩) h3
    intro x hx
    cases o with
    | sessionStarted c a => simp [input] at hx; subst hx; left; simpa [zeroOk] using ho'
    | sessionStopped c => simp [input] at hx; subst hx; left; simpa [zeroOk] using ho'
    | suspendEV c => simp [input] at hx; subst hx; left; simpa [zeroOk] using ho'
    | suspendEVSE c => simp [input] at hx; subst hx; left; simpa [zeroOk] using ho'
    | resume c => simp [input] at hx; subst hx; left; simpa [zeroOk] using ho'
    | reservationStart c => simp [input] at hx; subst hx; left; simpa [zeroOk] using ho'
    | reservationEnd c => simp [input] at hx; subst hx; left; simpa [zeroOk] using ho'
    | plugTimeout c => simp [input] at hx; subst hx; left; simpa [zeroOk] using ho'
    | txStarted c =>
      simp only [input] at hx
      split at hx
      · simp at hx; subst hx; left; simp; omega
      · simp at hx
    | txStopped c b =>
      simp [input] at hx; subst hx; left; intro h0
      simp only at h0; subst h0; exact h4 ⟨b, rfl⟩
    | error c e => simp [input] at hx; subst hx; right; simp
    | clear c u => simp [input] at hx; subst hx; right; simp
    | clearAll c => simp [input] at hx; subst hx; right; simp
    | enabled c => simp [input] at hx; subst hx; right; simp
    | disabled c => simp [input] at hx; subst hx; right; simp
    | _ => simp [input] at hx

example : getState (run (clean 2) [.change 0 false, .sessionStarted 1 true]) 0 = .unavailable := by decide

/-- **C67 (violated)**: the reduced table for connector 0 is not used, so a reservation of the whole
charge point gives connector 0 a status OCPP 1.6 does not allow for it. -/
theorem C67_zero_violated : getState (run (clean 1) [.reservationStart 0]) 0 = .reserved := by decide

/-! ## C68 -/

/-- **C68**: a request for a connector that does not exist is rejected and has no other effect. -/
theorem C68_rejected (s : State) (ci : Int) (op : Bool) (h : ¬ Exists s.n ci) :
    step s (.change ci op) = emit s (.answer .rejected) := change_absent op h

example : ¬ Exists (clean 2).n 3 ∧ ¬ Exists (clean 2).n (-1) := by decide

/-- **C68**: a request for a connector that exists is answered Scheduled if some connector it names
is in use or being prepared, and Accepted otherwise. -/
theorem C68_answer (s : State) (ci : Int) (op : Bool) (h : Exists s.n ci) :
    ∃ a rest, (step s (.change ci op)).out = s.out ++ .answer a :: rest
      ∧ (a = .scheduled ∨ a = .accepted)
      ∧ (a = .scheduled ↔ ∃ c, Names s.n ci c ∧ Waits s c)
      ∧ ∀ a, .answer a ∉ rest := by
  refine ⟨if ((named s.n ci.toNat).filter (mustWait s)).isEmpty then .accepted else .scheduled,
    (nowList s ci).map (fun c => if op then .enable c else .disable c), ?_, ?_, ?_, ?_⟩
  · rw [show step s (.change ci op) = change ci op s from rfl, change_eq op h, execute_out]
    simp [emit, storeQueue]
  · split <;> simp
  · cases hl : (named s.n ci.toNat).filter (mustWait s) with
    | nil =>
      simp only [List.isEmpty_nil, if_true, reduceCtorEq, false_iff]
      rintro ⟨c, hc⟩
      have := (mem_wait h).2 hc
      rw [hl] at this; simp at this
    | cons a l =>
      simp only [List.isEmpty_cons, if_false, Bool.false_eq_true, true_iff]
      exact ⟨a, (mem_wait h).1 (by rw [hl]; simp)⟩
  · intro a hm
    rw [List.mem_map] at hm
    obtain ⟨x, _, hx⟩ := hm
    cases op <;> simp at hx

/-- one of two connectors is in use -/
example : Exists (clean 2).n 0 ∧ Waits (run (clean 2) [.txStarted 1]) 1 ∧ ¬ Waits (run (clean 2) [.txStarted 1]) 2 := by
  decide

/-- **C68**: a connector named by the request that is not in use is enabled or disabled at once. -/
theorem C68_now (s : State) (ci : Int) (op : Bool) (c : Nat) (hn : Names s.n ci c) (hw : ¬ Waits s c) :
    told (step s (.change ci op)) c = some op := change_told hn hw

example : Names (clean 2).n 0 2 ∧ ¬ Waits (run (clean 2) [.txStarted 1]) 2 := by decide

/-- **C68**: the requested availability is persistent from the answer on, even while the change is
only scheduled. -/
theorem C68_persistent (s : State) (ci : Int) (op : Bool) (c : Nat) (hn : Names s.n ci c) :
    told (run s [.change ci op, .restart]) c = some op := by
  have h := told_boot (change ci op s) c (by
    rw [show change ci op s = step s (.change ci op) from rfl, step_n]; exact hn.2.1)
  rw [change_db_names hn] at h
  exact h

/-- **C68**: a connector that is in use is left alone until its session ends, and is enabled or
disabled then. (No request for the connector, firmware update, confirmation of an older transaction
of the connector or restart comes in between.) -/
theorem C68_scheduled_partial (s : State) (ci : Int) (op : Bool) (c : Nat) (hf : s.fwPending = false)
    (hn : Names s.n ci c) (hw : Waits s c) (q : List Op) (hq : ∀ o ∈ q, ¬ Concerns s.n c o) :
    let s1 := run s (.change ci op :: q)
    calls s1.out c = calls s.out c ∧ told (step s1 (.sessionStopped c)) c = some op := by
  intro s1
  have hs1 : s1 = run (step s (.change ci op)) q := rfl
  have hf1 : (step s (.change ci op)).fwPending = false := (change_fields ci op s).2.2.1.trans hf
  obtain ⟨h1, h2, _⟩ := quiet_run (c := c) q (step s (.change ci op)) hf1
    (fun o ho => by rw [step_n]; exact hq o ho)
  rw [← hs1] at h1 h2
  refine ⟨h2.trans (change_calls (fun h => h.2 hw)), ?_⟩
  have hqueue : s1.queue c = some ⟨op, true⟩ := h1.trans (change_queue_names hn hw)
  have h3 := (executeQueued_some hqueue).1
  simp only [step]
  split
  · unfold told at h3 ⊢
    rw [(submit_fields _ _ _).2.2.2.2.2.2]; exact h3
  · exact h3

example : let s := run (clean 2) [.sessionStarted 1 true, .txStarted 1, .resume 1]
    s.fwPending = false ∧ Names s.n 0 1 ∧ Waits s 1 := by decide

/-- **C68 (partial)**: after a restart every connector has the availability last asked for. (No
firmware updates; and no request for a connector arrives while an older one for it is scheduled and
the connector is no longer in use.) -/
theorem C68_last_partial (n : Nat) (ops : List Op) (c : Nat) (hc : c ≤ n)
    (hf : ∀ o ∈ ops, isFirmware o = false)
    (hq : ∀ p ci op q, ops = p ++ .change ci op :: q → Names n ci c →
      Waits (run (clean n) p) c ∨ (run (clean n) p).queue c = none) :
    told (run (clean n) (ops ++ [.restart])) c = some (wanted n c ops) := by
  suffices H : ∀ (k : Nat) (ops : List Op), ops.length = k → (∀ o ∈ ops, isFirmware o = false) →
      (∀ p ci op q, ops = p ++ .change ci op :: q → Names n ci c →
        Waits (run (clean n) p) c ∨ (run (clean n) p).queue c = none) →
      Last c (wanted n c ops) (run (clean n) ops) by
    have h1 := H ops.length ops rfl hf hq
    rw [run_append]
    have h2 := told_boot (run (clean n) ops) c (by rw [run_n]; exact hc)
    rw [h1.2.1] at h2
    exact h2
  intro k
  induction k with
  | zero =>
    intro ops h _ _
    have : ops = [] := List.length_eq_zero_iff.1 h
    subst this
    exact ⟨rfl, rfl, by simp [run, clean]⟩
  | succ k ih =>
    intro ops h hf hq
    rcases List.eq_nil_or_concat ops with h0 | ⟨l, o, h0⟩
    · subst h0; simp at h
    · subst h0
      rw [List.concat_eq_append] at *
      have hl : l.length = k := by simp at h; omega
      have hL := ih l hl (fun o' h' => hf o' (by simp [h'])) (fun p ci op q he hn =>
        hq p ci op (q ++ [o]) (by rw [he]; simp) hn)
      have hn : (run (clean n) l).n = n := run_n l (clean n)
      rw [run_append, wanted_snoc]
      show Last c _ (step (run (clean n) l) o)
      have hkeep : (∀ ci op, o = .change ci op → ¬ Names n ci c) →
          Last c (wanted n c l) (step (run (clean n) l) o) := fun hh =>
        last_keep hL (hf o (by simp)) (fun ci op e => by rw [hn]; exact hh ci op e)
      cases o with
      | change ci op =>
        simp only
        by_cases hN : Names n ci c
        · rw [if_pos (by exact ⟨⟨hN.1.1, hN.1.2⟩, hN.2.1, hN.2.2⟩)]
          exact last_change hL (by rw [hn]; exact hN) (hq l ci op [] rfl hN)
        · rw [if_neg (by rintro ⟨⟨a1, a2⟩, a3, a4⟩; exact hN ⟨⟨a1, a2⟩, a3, a4⟩)]
          exact hkeep (fun ci' op' e => by cases e; exact hN)
      | _ => exact hkeep (fun ci op e => by simp at e)

/-- a request while a transaction runs, another one after the session -/
example : told (run (clean 2) ([.txStarted 1, .change 1 false, .txStopped 1 false, .sessionStopped 1,
      .change 0 true, .change 2 false] ++ [.restart])) 1 = some true := by decide

/-- **C68 (violated)**: a request answered Accepted after the transaction, but before the end of the
session, is overridden by the older scheduled one. -/
theorem C68_overridden_violated :
    let s := run (clean 1) [.sessionStarted 1 true, .txStarted 1, .change 1 false, .txStopped 1 false,
      .change 1 true]
    s.out.getLast? = some (.enable 1) ∧ told (step s (.sessionStopped 1)) 1 = some false ∧
    told (run s [.sessionStopped 1, .restart]) 1 = some false := by decide

/-- **C68 (violated)**: a scheduled change is executed during a transaction when the confirmation of
an older transaction of the connector arrives late. -/
theorem C68_during_violated :
    let s := run (clean 1) [.txStarted 1, .txStopped 1 false, .txStarted 1, .change 1 false]
    s.tx 1 = true ∧ told s 1 = none ∧ (step s (.stopConf 1)).tx 1 = true ∧
    told (step s (.stopConf 1)) 1 = some false := by decide

/-! ## C69 -/

/-- the loop finds a connector -/
theorem obtainLoop_iff (s : State) (r : Remote) : ∀ (l : List Nat) (f : Bool),
    obtainLoop s r f l = true ↔ (l = [] ∧ f = true) ∨ ∃ c ∈ l, obtainable s r c = true := by
  intro l
  induction l with
  | nil => intro f; simp [obtainLoop]
  | cons a l ih =>
    intro f
    simp only [obtainLoop]
    by_cases h : obtainable s r a = true
    · simp [h]
    · rw [if_neg h, ih]; simp [h]

theorem obtainable_iff {s : State} {r : Remote} {c : Nat} (h1 : 1 ≤ c) (h2 : c ≤ s.n) :
    obtainable s r c = true ↔ MayStart s r c := by
  unfold obtainable MayStart
  simp only [h1, h2, true_and, List.mem_cons, List.not_mem_nil, or_false, not_or]
  by_cases a : getState s c = .unavailable ∨ getState s c = .faulted
  · rw [if_pos a]; simp; intro _ b c'; rcases a with a | a <;> simp_all
  · rw [if_neg a]
    by_cases b : s.tx c = true ∨ getState s c = .finishing
    · rw [if_pos b]; simp; intro h; rcases b with b | b <;> simp_all
    · rw [if_neg b]
      simp only [not_or] at a b
      by_cases d : getState s c = .reserved ∧ c ∈ r.otherToken
      · rw [if_pos d]; simp; intro _ _ _ _; exact d
      · rw [if_neg d]; simp; exact ⟨by simpa using b.1, ⟨a.1, a.2, b.2⟩, fun hh hm => d ⟨hh, hm⟩⟩

/-- The connectors a remote start refers to. -/
def refers (n : Nat) (r : Remote) (c : Nat) : Prop :=
  1 ≤ c ∧ c ≤ n ∧ ∀ ci, r.connector = some ci → ci = c

/-- The profile of the request can be used: there is none, or the request names a connector and has
a valid TxProfile. -/
def profileOk (r : Remote) : Prop :=
  match r.profile with
  | none => True
  | some (isTx, valid) => r.connector.isSome = true ∧ isTx = true ∧ valid = true

/-- **C69**: RemoteStartTransaction is accepted exactly if a transaction may be started on one of the
connectors it refers to and its profile can be used; the profile is stored and the token handed to
the application only then. -/
theorem C69_remote (s : State) (hn : 1 ≤ s.n) (r : Remote) :
    ((∃ c, refers s.n r c ∧ MayStart s r c) ∧ profileOk r →
      ∃ cs, (∀ c, c ∈ cs ↔ refers s.n r c) ∧
        (step s (.remote r)).out = s.out ++
          (match r.profile, r.connector with
            | some _, some ci => [.profile ci.toNat]
            | _, _ => []) ++ [.remote true, .token cs (!r.authorize)]) ∧
    (¬ ((∃ c, refers s.n r c ∧ MayStart s r c) ∧ profileOk r) →
      step s (.remote r) = emit s (.remote false)) := by
  show _ ∧ (_ → remoteStart r s = _)
  rw [show step s (.remote r) = remoteStart r s from rfl]
  unfold remoteStart
  cases hc : r.connector with
  | some ci =>
    simp only
    by_cases hb : ci ≤ 0 ∨ ci > (s.n : Int)
    · rw [if_pos hb]
      have hno : ¬ ∃ c, refers s.n r c ∧ MayStart s r c := by
        rintro ⟨c, ⟨h1, h2, h3⟩, _⟩
        have := h3 ci hc
        omega
      exact ⟨fun h => absurd h.1 hno, fun _ => rfl⟩
    · rw [if_neg hb]
      have h1 : 1 ≤ ci.toNat := by omega
      have h2 : ci.toNat ≤ s.n := by omega
      have hr : ∀ c, c ∈ [ci.toNat] ↔ refers s.n r c := by
        intro c
        simp only [List.mem_singleton, refers, hc, Option.some.injEq]
        constructor
        · rintro rfl; exact ⟨h1, h2, by intro x hx; omega⟩
        · rintro ⟨_, _, h⟩; have := h ci rfl; omega
      have hex : obtainLoop s r true [ci.toNat] = true ↔ ∃ c, refers s.n r c ∧ MayStart s r c := by
        rw [obtainLoop_iff]
        constructor
        · rintro (⟨h, _⟩ | ⟨c, h3, h4⟩)
          · simp at h
          · have h5 := (hr c).1 h3
            exact ⟨c, h5, (obtainable_iff h5.1 h5.2.1).1 h4⟩
        · rintro ⟨c, h3, h4⟩
          exact Or.inr ⟨c, (hr c).2 h3, (obtainable_iff h3.1 h3.2.1).2 h4⟩
      by_cases ho : obtainLoop s r true [ci.toNat] = true
      · rw [ho]
        simp only [Bool.not_true, if_false, Bool.false_eq_true]
        have h3 := hex.1 ho
        unfold remoteProfile
        rw [hc]
        cases hp : r.profile with
        | none =>
          simp only [hc]
          refine ⟨fun _ => ⟨[ci.toNat], hr, by simp [remoteAccept, emit]⟩, fun h => absurd ⟨h3, by simp [profileOk, hp]⟩ h⟩
        | some pr =>
          obtain ⟨isTx, valid⟩ := pr
          simp only [hc]
          have hpo : profileOk r ↔ (isTx && valid) = true := by simp [profileOk, hp, hc]
          by_cases hv : (isTx && valid) = true
          · rw [if_pos hv]
            exact ⟨fun _ => ⟨[ci.toNat], hr, by simp [remoteAccept, emit]⟩, fun h => absurd ⟨h3, hpo.2 hv⟩ h⟩
          · rw [if_neg hv]
            exact ⟨fun h => absurd (hpo.1 h.2) hv, fun _ => rfl⟩
      · rw [Bool.not_eq_true] at ho
        rw [ho]
        simp only [Bool.not_false, if_true]
        refine ⟨fun h => ?_, fun _ => trivial⟩
        rw [hex.2 h.1] at ho; simp at ho
  | none =>
    simp only
    have hr : ∀ c, c ∈ connectors s.n ↔ refers s.n r c := by
      intro c; rw [mem_connectors]; simp [refers, hc]
    have hex : obtainLoop s r true (connectors s.n) = true ↔ ∃ c, refers s.n r c ∧ MayStart s r c := by
      rw [obtainLoop_iff]
      constructor
      · rintro (⟨h, _⟩ | ⟨c, h3, h4⟩)
        · have : 1 ∈ connectors s.n := mem_connectors.2 ⟨by omega, hn⟩
          rw [h] at this; simp at this
        · have h5 := (hr c).1 h3
          exact ⟨c, h5, (obtainable_iff h5.1 h5.2.1).1 h4⟩
      · rintro ⟨c, h3, h4⟩
        exact Or.inr ⟨c, (hr c).2 h3, (obtainable_iff h3.1 h3.2.1).2 h4⟩
    by_cases ho : obtainLoop s r true (connectors s.n) = true
    · rw [ho]
      simp only [Bool.not_true, if_false, Bool.false_eq_true]
      have h3 := hex.1 ho
      unfold remoteProfile
      rw [hc]
      cases hp : r.profile with
      | none =>
        simp only
        refine ⟨fun _ => ⟨connectors s.n, hr, by simp [remoteAccept, emit]⟩, fun h => absurd ⟨h3, by simp [profileOk, hp]⟩ h⟩
      | some pr =>
        obtain ⟨isTx, valid⟩ := pr
        simp only
        refine ⟨fun h => ?_, fun _ => trivial⟩
        have := h.2
        simp [profileOk, hp, hc] at this
    · rw [Bool.not_eq_true] at ho
      rw [ho]
      simp only [Bool.not_false, if_true]
      refine ⟨fun h => ?_, fun _ => trivial⟩
      rw [hex.2 h.1] at ho; simp at ho

/-- the second of two connectors is free -/
example : (step (run (clean 2) [.txStarted 1]) (.remote ⟨none, none, [], true⟩)).out
    = [.remote true, .token [1, 2] false] := by decide

/-! ## C70 -/

/-- **C70**: the application is told that all connectors are unavailable only when no transaction is
running. -/
theorem C70_only (s : State) (o : Op) (h : (step s o).out.count .allUnavailable ≠ s.out.count .allUnavailable) :
    ¬ AnyTx s := by
  intro hx
  apply h
  have fp : ∀ s1 : State, s1.n = s.n → s1.tx = s.tx →
      (firmwarePrepare s1).out.count .allUnavailable = s1.out.count .allUnavailable := by
    intro s1 h1 h2
    have hx1 : AnyTx s1 := by obtain ⟨c, a, b, d⟩ := hx; exact ⟨c, a, h1 ▸ b, h2 ▸ d⟩
    rw [firmwarePrepare_out, (anyTx_iff s1).1 hx1]
    simp only [Bool.false_eq_true, if_false, List.append_nil, List.count_append]
    have : (((connectors s1.n).filter (fun c => !s1.tx c)).map Out.disable).count .allUnavailable = 0 := by
      apply List.count_eq_zero.2
      simp
    omega
  have ex : ∀ cs op p (s1 : State), (execute cs op p s1).out.count .allUnavailable = s1.out.count .allUnavailable := by
    intro cs op p s1
    rw [execute_out, List.count_append]
    have : (cs.map (fun c => if op then Out.enable c else .disable c)).count .allUnavailable = 0 := by
      apply List.count_eq_zero.2
      simp only [List.mem_map, not_exists, not_and]
      intro c _; cases op <;> simp
    omega
  have sub : ∀ c fo (s1 : State), (submit c fo s1).out = s1.out := fun c fo s1 => (submit_fields c fo s1).2.2.2.2.2.2
  have eq : ∀ c (s1 : State), (executeQueued c s1).out.count .allUnavailable = s1.out.count .allUnavailable := by
    intro c s1
    unfold executeQueued
    split
    · rfl
    · exact ex _ _ _ _
  have em : ∀ o' (s1 : State), o' ≠ .allUnavailable →
      (emit s1 o').out.count .allUnavailable = s1.out.count .allUnavailable := by
    intro o' s1 hne
    show (s1.out ++ [o']).count _ = _
    have : [o'].count .allUnavailable = 0 := by
      apply List.count_eq_zero.2; simpa using fun e : Out.allUnavailable = o' => hne e.symm
    rw [List.count_append]; omega
  cases o with
  | sessionStarted c a => simp only [step]; split <;> simp [sub]
  | sessionStopped c => simp only [step]; split <;> simp [sub, eq]
  | txStarted c =>
    simp only [step]; split
    · unfold useReserved; split <;> simp [sub]
    · rfl
  | txStopped c b =>
    simp only [step]; split
    · unfold finish; split <;> simp [sub]
    · rfl
  | stopConf c =>
    have hc : (confirmed c s).n = s.n ∧ (confirmed c s).tx = s.tx ∧
        (confirmed c s).out.count .allUnavailable = s.out.count .allUnavailable := by
      unfold confirmed
      split
      · obtain ⟨g1, g2, _⟩ := executeQueued_fields c { s with waiting := s.waiting.erase c }
        exact ⟨g1, g2, eq _ _⟩
      · exact ⟨rfl, rfl, rfl⟩
    simp only [step]
    split
    · rw [fp _ hc.1 hc.2.1]; exact hc.2.2
    · exact hc.2.2
  | suspendEV c => simp [step, sub]
  | suspendEVSE c => simp [step, sub]
  | resume c => simp [step, sub]
  | error c e => simp [step, sub]
  | clear c u => simp [step, sub]
  | clearAll c => simp [step, sub]
  | reservationStart c => simp [step, sub]
  | reservationEnd c => simp [step, sub]
  | enabled c => simp [step, sub]
  | disabled c => simp [step, sub]
  | plugTimeout c => simp [step, sub]
  | change ci op =>
    show (change ci op s).out.count _ = _
    unfold change
    split
    · rw [ex, em _ _ (by simp)]; rfl
    · exact em _ _ (by simp)
  | remote r =>
    show (remoteStart r s).out.count _ = _
    have ha : ∀ cs (s1 : State), s1.out.count .allUnavailable = s.out.count .allUnavailable →
        (remoteAccept cs r s1).out.count .allUnavailable = s.out.count .allUnavailable := by
      intro cs s1 h1
      unfold remoteAccept
      rw [em _ _ (by simp), em _ _ (by simp)]; exact h1
    have hp : ∀ cs, (remoteProfile cs r s).out.count .allUnavailable = s.out.count .allUnavailable := by
      intro cs
      unfold remoteProfile
      split
      · exact ha _ _ rfl
      · split
        · exact em _ _ (by simp)
        · split
          · exact ha _ _ (em _ _ (by simp))
          · exact em _ _ (by simp)
    unfold remoteStart
    split
    · split
      · exact em _ _ (by simp)
      · split
        · exact em _ _ (by simp)
        · exact hp _
    · split
      · exact em _ _ (by simp)
      · exact hp _
  | firmware st =>
    have p1 : ∀ s1 : State, s1.n = s.n → s1.tx = s.tx → s1.out = s.out →
        (if s1.fwPending then firmwarePrepare s1 else s1).out.count .allUnavailable = s.out.count .allUnavailable := by
      intro s1 h1 h2 h3
      split
      · rw [fp s1 h1 h2, h3]
      · rw [h3]
    have p2 : ∀ s2 : State, (((List.range (s2.n + 1)).filter s2.db).foldl
        (fun s c => emit (if c = 0 then submit 0 (.event .becomeAvailable) s else s) (.enable c)) s2).out.count
          .allUnavailable = s2.out.count .allUnavailable := by
      intro s2
      rw [(fold_enable_fields _ s2).2.2.2.2.2.2.2, List.count_append]
      have : (((List.range (s2.n + 1)).filter s2.db).map Out.enable).count .allUnavailable = 0 := by
        apply List.count_eq_zero.2; simp
      omega
    show (firmware st s).out.count _ = _
    cases st with
    | ready => exact p1 { s with fwPending := true } rfl rfl rfl
    | failed => exact p1 { s with fwPending := false } rfl rfl rfl
    | installFailed => exact (p2 _).trans (p1 { s with fwPending := false } rfl rfl rfl)
    | installed => exact (p2 _).trans (p1 s rfl rfl rfl)
    | other => exact p1 s rfl rfl rfl
  | timer c =>
    simp only [step]; split
    · rfl
    · exact em _ _ (by simp)
  | trigger c =>
    simp only [step]; split
    · exact em _ _ (by simp)
    · rfl
  | reportAll =>
    have key : ∀ (l : List Nat) (s : State), (l.foldl (fun s c => submit c .trigger s) s).out = s.out := by
      intro l
      induction l with
      | nil => intro s; rfl
      | cons a l ih => intro s; simp only [List.foldl_cons]; rw [ih, sub]
    show (triggerAll s).out.count _ = _
    unfold triggerAll
    rw [key]
  | restart =>
    show (boot s).out.count _ = _
    rw [(boot_fields s).2.2.2.2.2.2.2.2, List.count_append]
    have : ((List.range (s.n + 1)).map (fun c => if s.db c then Out.enable c else .disable c)).count
        .allUnavailable = 0 := by
      apply List.count_eq_zero.2
      simp only [List.mem_map, not_exists, not_and]
      intro c _; cases s.db c <;> simp
    omega

example : (step (clean 2) (.firmware .ready)).out = [.disable 1, .disable 2, .allUnavailable] := by decide

/-- **C70**: when an update is ready, every connector without a transaction is disabled, and if no
transaction runs the application is told that all connectors are unavailable. -/
theorem C70_ready (s : State) :
    let s' := step s (.firmware .ready)
    (∀ c, 1 ≤ c → c ≤ s.n → s.tx c = false → told s' c = some false) ∧
    (¬ AnyTx s → s'.out.getLast? = some .allUnavailable) ∧
    (∀ c, 1 ≤ c → c ≤ s.n → s.tx c = true → calls s'.out c = calls s.out c) := by
  intro s'
  have e : s' = firmwarePrepare { s with fwPending := true } := rfl
  refine ⟨fun c h1 h2 h3 => ?_, fun h => ?_, fun c h1 h2 h3 => ?_⟩
  · rw [e]; exact firmwarePrepare_told { s with fwPending := true } c h1 h2 h3
  · rw [e, firmwarePrepare_out]
    have h' : ((connectors s.n).filter s.tx).isEmpty = true := by
      cases hh : ((connectors s.n).filter s.tx).isEmpty with
      | true => rfl
      | false => exact absurd ((anyTx_iff s).2 hh) h
    simp only [h', if_true]
    simp
  · rw [e, firmwarePrepare_out]
    simp only [calls_append]
    have a1 : calls (((connectors s.n).filter (fun c => !s.tx c)).map Out.disable) c = [] :=
      calls_map_absent false c _ (by simp [h3])
    have a2 : calls (if ((connectors s.n).filter s.tx).isEmpty then [Out.allUnavailable] else []) c = [] := by
      split <;> simp [calls]
    simp only [a1, a2, List.append_nil]

/-- The pending update is revoked by these operations only. -/
def endsUpdate : Op → Bool
  | .firmware .failed | .firmware .installFailed | .restart => true
  | _ => false

theorem pending_step (s : State) (o : Op) (h : s.fwPending = true) (ho : endsUpdate o = false) :
    (step s o).fwPending = true := by
  have sub : ∀ c fo (s1 : State), s1.fwPending = true → (submit c fo s1).fwPending = true :=
    fun c fo s1 h => by rw [(submit_fields c fo s1).2.2.2.2.2.1]; exact h
  have fp : ∀ s1 : State, s1.fwPending = true → (if s1.fwPending then firmwarePrepare s1 else s1).fwPending = true := by
    intro s1 h
    rw [if_pos h, (firmwarePrepare_fields s1).2.2.2.1]; exact h
  cases o with
  | restart => simp [endsUpdate] at ho
  | sessionStarted c a => 
    simp only [step]; split
    · exact sub _ _ _ h
    · exact h
  | sessionStopped c =>
    have h1 : (executeQueued c s).fwPending = true := by rw [(executeQueued_fields c s).2.2.2.1]; exact h
    simp only [step]; split
    · exact sub _ _ _ h1
    · exact h1
  | txStarted c =>
    simp only [step]; split
    · unfold useReserved; split
      · exact sub _ _ _ h
      · exact h
    · exact h
  | txStopped c b =>
    simp only [step]; split
    · unfold finish; split
      · exact h
      · exact sub _ _ _ h
    · exact h
  | stopConf c =>
    simp only [step]
    apply fp
    unfold confirmed
    split
    · rw [(executeQueued_fields _ _).2.2.2.1]; exact h
    · exact h
  | change ci op => rw [show step s (.change ci op) = change ci op s from rfl, (change_fields ci op s).2.2.1]; exact h
  | remote r => rw [show step s (.remote r) = remoteStart r s from rfl, (remote_fields r s).2.2.2.2.1]; exact h
  | firmware st =>
    cases st with
    | ready => exact fp { s with fwPending := true } rfl
    | failed => simp [endsUpdate] at ho
    | installFailed => simp [endsUpdate] at ho
    | installed =>
      show (firmware .installed s).fwPending = true
      unfold firmware
      simp only
      rw [(fold_enable_fields _ _).2.2.2.2.1]
      exact fp s h
    | other => exact fp s h
  | timer c => simp only [step]; split <;> exact h
  | trigger c => simp only [step]; split <;> exact h
  | reportAll =>
    have key : ∀ (l : List Nat) (s : State), s.fwPending = true →
        (l.foldl (fun s c => submit c .trigger s) s).fwPending = true := by
      intro l
      induction l with
      | nil => intro s h; exact h
      | cons a l ih => intro s h; exact ih _ (sub _ _ _ h)
    exact key _ s h
  | _ => exact sub _ _ _ h

/-- **C70**: once an update was ready and until it fails or the charge point restarts, the
application is told that all connectors are unavailable as soon as the CSMS confirms the end of a
transaction while no other transaction is running; and every connector is disabled then. -/
theorem C70_told (s : State) (q : List Op) (hq : ∀ o ∈ q, endsUpdate o = false) (c : Nat) :
    let s1 := run s (.firmware .ready :: q)
    ¬ AnyTx s1 → (step s1 (.stopConf c)).out.getLast? = some .allUnavailable ∧
      ∀ c', 1 ≤ c' → c' ≤ s.n → told (step s1 (.stopConf c)) c' = some false := by
  intro s1 hx
  have hp : s1.fwPending = true := by
    have h0 : (step s (.firmware .ready)).fwPending = true := by
      show (firmwarePrepare { s with fwPending := true }).fwPending = true
      rw [(firmwarePrepare_fields _).2.2.2.1]
    have hrun : ∀ (q : List Op) (s : State), s.fwPending = true → (∀ o ∈ q, endsUpdate o = false) →
        (run s q).fwPending = true := by
      intro q
      induction q with
      | nil => intro s h _; exact h
      | cons o q ih =>
        intro s h hq
        exact ih _ (pending_step s o h (hq o (by simp))) (fun o' h' => hq o' (by simp [h']))
    exact hrun q _ h0 hq
  have hn : s1.n = s.n := run_n _ s
  have hc : (confirmed c s1).n = s1.n ∧ (confirmed c s1).tx = s1.tx ∧ (confirmed c s1).fwPending = true := by
    unfold confirmed
    split
    · obtain ⟨g1, g2, _, g4, _⟩ := executeQueued_fields c { s1 with waiting := s1.waiting.erase c }
      exact ⟨g1, g2, g4.trans hp⟩
    · exact ⟨rfl, rfl, hp⟩
  have e : step s1 (.stopConf c) = firmwarePrepare (confirmed c s1) := by simp [step, hc.2.2]
  rw [e]
  have hx' : ¬ AnyTx (confirmed c s1) := fun ⟨x, a, b, d⟩ => hx ⟨x, a, hc.1 ▸ b, hc.2.1 ▸ d⟩
  constructor
  · rw [firmwarePrepare_out]
    have h' : ((connectors (confirmed c s1).n).filter (confirmed c s1).tx).isEmpty = true := by
      cases hh : ((connectors (confirmed c s1).n).filter (confirmed c s1).tx).isEmpty with
      | true => rfl
      | false => exact absurd ((anyTx_iff _).2 hh) hx'
    rw [h']
    simp
  · intro c' h1 h2
    apply firmwarePrepare_told _ c' h1 (by rw [hc.1, hn]; exact h2)
    cases ht : (confirmed c s1).tx c' with
    | false => rfl
    | true => exact absurd ⟨c', h1, by rw [hc.1, hn]; exact h2, ht⟩ hx'

example : (run (clean 2) [.txStarted 1, .firmware .ready, .txStopped 1 false, .stopConf 1]).out
    = [.disable 2, .disable 1, .disable 1, .disable 2, .allUnavailable] := by decide

/-- **C70**: when the installation is over, every connector the CSMS left Operative is enabled. -/
theorem C70_restored (s : State) (st : Firmware) (h : st = .installFailed ∨ (st = .installed ∧ s.fwPending = false))
    (c : Nat) (hc : c ≤ s.n) (hd : s.db c = true) : told (step s (.firmware st)) c = some true := by
  have key : ∀ s2 : State, s2.n = s.n → s2.db = s.db →
      told (((List.range (s2.n + 1)).filter s2.db).foldl
        (fun s c => emit (if c = 0 then submit 0 (.event .becomeAvailable) s else s) (.enable c)) s2) c
        = some true := by
    intro s2 h1 h2
    unfold told
    rw [(fold_enable_fields _ s2).2.2.2.2.2.2.2, calls_append, List.getLast?_append]
    have := calls_map_last true c ((List.range (s2.n + 1)).filter s2.db)
      (List.mem_filter.2 ⟨by rw [h1]; simp; omega, by rw [h2]; exact hd⟩)
    simp only [if_true] at this
    rw [this]; rfl
  show told (firmware st s) c = _
  rcases h with rfl | ⟨rfl, hf⟩
  · exact key { s with fwPending := false } rfl rfl
  · unfold firmware
    simp only [hf, if_false, Bool.false_eq_true]
    exact key s rfl rfl

/-- **C70 (violated)**: a successful installation does not end the update for the charge point: when
the next transaction ends, all connectors are disabled again. -/
theorem C70_installed_violated :
    let s := run (clean 2) [.firmware .ready, .firmware .installed]
    told s 1 = some true ∧ told s 2 = some true ∧
    told (run s [.txStarted 1, .txStopped 1 true, .stopConf 1]) 1 = some false ∧
    told (run s [.txStarted 1, .txStopped 1 true, .stopConf 1]) 2 = some false := by decide

/-- **C70 (violated)**: an update that fails while a transaction is running leaves the connector to
be disabled at the end of the session. -/
theorem C70_failed_violated :
    told (run (clean 1) [.sessionStarted 1 true, .txStarted 1, .firmware .ready,
      .firmware .installFailed, .txStopped 1 true, .sessionStopped 1]) 1 = some false := by decide

/-- **C70 (violated)**: a request of the CSMS for one connector stores the temporary unavailability of
another one for good: after the update and a restart that connector is Inoperative, although the CSMS
never asked for that. -/
theorem C70_stored_violated :
    let ops : List Op := [.txStarted 1, .firmware .ready, .change 2 true, .txStopped 1 true,
      .sessionStopped 1, .firmware .installed, .restart]
    wanted 2 1 ops = true ∧ told (run (clean 2) ops) 1 = some false := by decide

end Verif.Conn16
