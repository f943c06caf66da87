import Verif.Conn16.Fsm

set_option linter.constructorNameAsVariable false

/-! # Lemmas about the charge point -/

namespace Verif.Conn16

/-! ## Elementary steps -/

theorem submit_fields (c : Nat) (o : FOp) (s : State) :
    (submit c o s).n = s.n ∧ (submit c o s).tx = s.tx ∧ (submit c o s).waiting = s.waiting ∧
    (submit c o s).queue = s.queue ∧ (submit c o s).db = s.db ∧
    (submit c o s).fwPending = s.fwPending ∧ (submit c o s).out = s.out := by
  unfold submit
  split
  · simp only
    split <;> simp
  · simp

theorem submit_fsm_ne {c c' : Nat} (o : FOp) (s : State) (h : c' ≠ c) :
    (submit c o s).fsm c' = s.fsm c' ∧ (submit c o s).timer c' = s.timer c' := by
  unfold submit
  split
  · simp only
    split <;> simp [upd, h]
  · simp

theorem submit_fsm_self {c : Nat} (o : FOp) (s : State) (h : c ≤ s.n) :
    (submit c o s).fsm c = (fstep (s.fsm c) o).1 := by
  unfold submit
  rw [if_pos h]
  simp only
  split <;> simp [upd]

theorem submit_timer_self {c : Nat} (o : FOp) (s : State) (h : c ≤ s.n) :
    (submit c o s).timer c =
      match (fstep (s.fsm c) o).2 with | none => s.timer c | some n => some n := by
  unfold submit
  rw [if_pos h]
  simp only
  split <;> simp_all [upd]

theorem submit_absent {c : Nat} (o : FOp) (s : State) (h : ¬ c ≤ s.n) : submit c o s = s := by
  unfold submit; rw [if_neg h]

/-- submitting is applying one input, or nothing -/
theorem submit_fsm (c c' : Nat) (o : FOp) (s : State) :
    (submit c o s).fsm c' = s.fsm c' ∨ (submit c o s).fsm c' = (fstep (s.fsm c') o).1 := by
  by_cases h : c' = c
  · subst h
    by_cases hn : c' ≤ s.n
    · exact Or.inr (submit_fsm_self o s hn)
    · rw [submit_absent o s hn]; exact Or.inl rfl
  · exact Or.inl (submit_fsm_ne o s h).1

theorem trigger_fsm (c : Nat) (s : State) : (submit c .trigger s).fsm = s.fsm := by
  funext c'
  rcases submit_fsm c c' .trigger s with h | h
  · exact h
  · rw [h]; rfl

theorem fold_fields {α : Type} (f : State → α → State)
    (hf : ∀ s a, (f s a).n = s.n ∧ (f s a).tx = s.tx ∧ (f s a).waiting = s.waiting ∧
      (f s a).queue = s.queue ∧ (f s a).fwPending = s.fwPending ∧
      ∀ c, 1 ≤ c → (f s a).fsm c = s.fsm c) :
    ∀ (l : List α) (s : State), (l.foldl f s).n = s.n ∧ (l.foldl f s).tx = s.tx ∧
      (l.foldl f s).waiting = s.waiting ∧ (l.foldl f s).queue = s.queue ∧
      (l.foldl f s).fwPending = s.fwPending ∧ ∀ c, 1 ≤ c → (l.foldl f s).fsm c = s.fsm c := by
  intro l
  induction l with
  | nil => intro s; simp
  | cons a l ih =>
    intro s
    obtain ⟨h1, h2, h3, h4, h5, h6⟩ := ih (f s a)
    obtain ⟨g1, g2, g3, g4, g5, g6⟩ := hf s a
    simp only [List.foldl_cons]
    exact ⟨h1.trans g1, h2.trans g2, h3.trans g3, h4.trans g4, h5.trans g5,
      fun c hc => (h6 c hc).trans (g6 c hc)⟩

theorem submit_zero_fields (o : FOp) (s : State) :
    (submit 0 o s).n = s.n ∧ (submit 0 o s).tx = s.tx ∧ (submit 0 o s).waiting = s.waiting ∧
    (submit 0 o s).queue = s.queue ∧ (submit 0 o s).fwPending = s.fwPending ∧
    ∀ c, 1 ≤ c → (submit 0 o s).fsm c = s.fsm c := by
  obtain ⟨h1, h2, h3, h4, _, h6, _⟩ := submit_fields 0 o s
  exact ⟨h1, h2, h3, h4, h6, fun c hc => (submit_fsm_ne o s (by omega)).1⟩

theorem executeOne_fields (op p : Bool) (s : State) (a : Nat) :
    (executeOne op p s a).n = s.n ∧ (executeOne op p s a).tx = s.tx ∧
    (executeOne op p s a).waiting = s.waiting ∧ (executeOne op p s a).queue = s.queue ∧
    (executeOne op p s a).fwPending = s.fwPending ∧
    ∀ c, 1 ≤ c → (executeOne op p s a).fsm c = s.fsm c := by
  unfold executeOne
  cases p <;> cases op <;> simp only [if_true, if_false, Bool.false_eq_true] <;> (
    by_cases ha : a = 0
    · simp only [ha, if_true, emit]
      exact submit_zero_fields _ _
    · simp [ha, emit])

theorem execute_fields (cs : List Nat) (op p : Bool) (s : State) :
    (execute cs op p s).n = s.n ∧ (execute cs op p s).tx = s.tx ∧
    (execute cs op p s).waiting = s.waiting ∧ (execute cs op p s).queue = s.queue ∧
    (execute cs op p s).fwPending = s.fwPending ∧
    ∀ c, 1 ≤ c → (execute cs op p s).fsm c = s.fsm c :=
  fold_fields _ (executeOne_fields op p) cs s

theorem executeOne_db (op p : Bool) (s : State) (a c : Nat) :
    (executeOne op p s a).db c = if p = true ∧ c = a then op else s.db c := by
  unfold executeOne
  have hs := fun o (s : State) => (submit_fields 0 o s).2.2.2.2.1
  cases p <;> cases op <;> by_cases ha : a = 0 <;> simp [emit, ha, hs, upd]

theorem execute_db (cs : List Nat) (op p : Bool) (c : Nat) : ∀ s : State,
    (execute cs op p s).db c = if p = true ∧ c ∈ cs then op else s.db c := by
  unfold execute
  induction cs with
  | nil => intro s; simp
  | cons a l ih =>
    intro s
    simp only [List.foldl_cons]
    rw [ih, executeOne_db]
    cases p
    · simp
    · simp only [true_and, List.mem_cons]
      by_cases h1 : c ∈ l <;> by_cases h2 : c = a <;> simp [h1, h2]

theorem executeOne_out (op p : Bool) (s : State) (a : Nat) :
    (executeOne op p s a).out = s.out ++ [if op then .enable a else .disable a] := by
  unfold executeOne
  have hs := fun o (s : State) => (submit_fields 0 o s).2.2.2.2.2.2
  cases p <;> cases op <;> by_cases ha : a = 0 <;> simp [emit, ha, hs]

theorem execute_out (cs : List Nat) (op p : Bool) : ∀ s : State,
    (execute cs op p s).out = s.out ++ cs.map (fun c => if op then .enable c else .disable c) := by
  unfold execute
  induction cs with
  | nil => intro s; simp
  | cons a l ih =>
    intro s
    simp only [List.foldl_cons, List.map_cons]
    rw [ih, executeOne_out]; simp

theorem calls_append (a b : List Out) (c : Nat) : calls (a ++ b) c = calls a c ++ calls b c := by
  simp [calls]

theorem sent_append (a b : List Out) (c : Nat) : sent (a ++ b) c = sent a c ++ sent b c := by
  simp [sent]

theorem calls_map_absent (op : Bool) (c : Nat) (cs : List Nat) (h : c ∉ cs) :
    calls (cs.map (fun c => if op then .enable c else .disable c)) c = [] := by
  induction cs with
  | nil => rfl
  | cons a l ih =>
    simp only [List.mem_cons, not_or] at h
    have h1 := ih h.2
    have h2 : ¬ a = c := fun e => h.1 e.symm
    cases op <;> simp [calls, h2] at h1 ⊢ <;> exact h1

theorem calls_map_last (op : Bool) (c : Nat) : ∀ (cs : List Nat), c ∈ cs →
    (calls (cs.map (fun c => if op then .enable c else .disable c)) c).getLast? = some op := by
  intro cs
  induction cs with
  | nil => intro h; simp at h
  | cons a l ih =>
    intro h
    have e : (a :: l).map (fun c => if op then Out.enable c else .disable c)
        = [if op then Out.enable a else .disable a]
          ++ l.map (fun c => if op then Out.enable c else .disable c) := rfl
    rw [e, calls_append]
    by_cases hl : c ∈ l
    · rw [List.getLast?_append, ih hl]; rfl
    · have ha : a = c := by
        rcases List.mem_cons.1 h with h | h
        · exact h.symm
        · exact absurd h hl
      rw [calls_map_absent op c l hl]
      cases op <;> simp [calls, ha]

theorem execute_told (cs : List Nat) (op p : Bool) (s : State) (c : Nat) :
    told (execute cs op p s) c = if c ∈ cs then some op else told s c := by
  unfold told
  rw [execute_out, calls_append]
  by_cases h : c ∈ cs
  · rw [if_pos h, List.getLast?_append, calls_map_last op c cs h]; rfl
  · rw [if_neg h, calls_map_absent op c cs h]; simp

theorem execute_calls_absent (cs : List Nat) (op p : Bool) (s : State) (c : Nat) (h : c ∉ cs) :
    calls (execute cs op p s).out c = calls s.out c := by
  rw [execute_out, calls_append, calls_map_absent op c cs h]; simp

theorem executeQueued_fields (c : Nat) (s : State) :
    (executeQueued c s).n = s.n ∧ (executeQueued c s).tx = s.tx ∧
    (executeQueued c s).waiting = s.waiting ∧ (executeQueued c s).fwPending = s.fwPending ∧
    (∀ c', 1 ≤ c' → (executeQueued c s).fsm c' = s.fsm c') ∧
    (∀ c', (executeQueued c s).queue c' = if c' = c then none else s.queue c') := by
  unfold executeQueued
  split
  · rename_i h
    refine ⟨rfl, rfl, rfl, rfl, fun _ _ => rfl, fun c' => ?_⟩
    split
    · rename_i e; subst e; exact h
    · rfl
  · rename_i q hq
    obtain ⟨h1, h2, h3, h4, h5, h6⟩ :=
      execute_fields [c] q.operative q.persist { s with queue := upd s.queue c none }
    refine ⟨h1, h2, h3, h5, h6, fun c' => ?_⟩
    rw [h4]; rfl

theorem executeQueued_none {c : Nat} {s : State} (h : s.queue c = none) : executeQueued c s = s := by
  unfold executeQueued; rw [h]

theorem firmwarePrepare_fields (s : State) :
    (firmwarePrepare s).n = s.n ∧ (firmwarePrepare s).tx = s.tx ∧
    (firmwarePrepare s).waiting = s.waiting ∧ (firmwarePrepare s).fwPending = s.fwPending ∧
    (firmwarePrepare s).fsm = s.fsm ∧ (firmwarePrepare s).timer = s.timer ∧
    (firmwarePrepare s).db = s.db ∧
    (firmwarePrepare s).queue = (fun c => if c ∈ (connectors s.n).filter s.tx then some ⟨false, false⟩
      else s.queue c) := by
  have key : ∀ (l : List Nat) (s : State),
      let r := l.foldl (fun s c => emit s (.disable c)) s
      r.n = s.n ∧ r.tx = s.tx ∧ r.waiting = s.waiting ∧ r.fwPending = s.fwPending ∧ r.fsm = s.fsm ∧
      r.timer = s.timer ∧ r.db = s.db ∧ r.queue = s.queue := by
    intro l
    induction l with
    | nil => intro s; simp
    | cons a l ih => intro s; simp only [List.foldl_cons]; exact ih (emit s (.disable a))
  unfold firmwarePrepare
  obtain ⟨h1, h2, h3, h4, h5, h6, h7, h8⟩ := key ((connectors s.n).filter (fun c => !s.tx c))
    { s with queue := fun c => if c ∈ (connectors s.n).filter s.tx then some ⟨false, false⟩
      else s.queue c }
  simp only
  split
  · exact ⟨h1, h2, h3, h4, h5, h6, h7, h8⟩
  · exact ⟨h1, h2, h3, h4, h5, h6, h7, h8⟩

theorem fold_emit_out {α : Type} (f : α → Out) : ∀ (l : List α) (s : State),
    (l.foldl (fun s c => emit s (f c)) s).out = s.out ++ l.map f := by
  intro l
  induction l with
  | nil => intro s; simp
  | cons a l ih => intro s; simp only [List.foldl_cons, List.map_cons]; rw [ih]; simp [emit]

theorem mem_connectors {n c : Nat} : c ∈ connectors n ↔ 1 ≤ c ∧ c ≤ n := by
  simp only [connectors, List.mem_map, List.mem_range]
  constructor
  · rintro ⟨a, h, rfl⟩; omega
  · rintro ⟨h1, h2⟩; exact ⟨c - 1, by omega, by omega⟩

theorem firmwarePrepare_out (s : State) :
    (firmwarePrepare s).out = s.out ++ ((connectors s.n).filter (fun c => !s.tx c)).map .disable
      ++ (if ((connectors s.n).filter s.tx).isEmpty then [.allUnavailable] else []) := by
  unfold firmwarePrepare
  simp only
  split
  · rename_i h
    simp only [emit, h, if_true]
    rw [show (fun (s : State) (c : Nat) => ({ s with out := s.out ++ [Out.disable c] } : State))
      = (fun s c => emit s (Out.disable c)) from rfl, fold_emit_out]
  · rename_i h
    simp only [h, if_false, List.append_nil, Bool.false_eq_true]
    rw [fold_emit_out]

theorem anyTx_iff (s : State) : AnyTx s ↔ ((connectors s.n).filter s.tx).isEmpty = false := by
  unfold AnyTx
  constructor
  · rintro ⟨c, h1, h2, h3⟩
    have : c ∈ (connectors s.n).filter s.tx := List.mem_filter.2 ⟨mem_connectors.2 ⟨h1, h2⟩, h3⟩
    cases hl : (connectors s.n).filter s.tx with
    | nil => rw [hl] at this; simp at this
    | cons a l => rfl
  · intro h
    cases hl : (connectors s.n).filter s.tx with
    | nil => rw [hl] at h; simp at h
    | cons a l =>
      have : a ∈ (connectors s.n).filter s.tx := by rw [hl]; simp
      obtain ⟨h1, h2⟩ := List.mem_filter.1 this
      obtain ⟨h3, h4⟩ := mem_connectors.1 h1
      exact ⟨a, h3, h4, h2⟩

/-! ## Closed properties -/

/-- A property kept by everything the charge point does except sending status reports and
restarting; `Q` restricts the inputs of the state machines. -/
structure Closed (Q : Nat → FOp → Prop) (P : State → Prop) : Prop where
  up : Q 0 (.event .becomeAvailable)
  down : Q 0 (.event .changeToUnavailable)
  trig : ∀ c, Q c .trigger
  submit : ∀ c o s, Q c o → P s → P (submit c o s)
  emit : ∀ o s, (∀ c n, o ≠ .status c n) → P s → P (emit s o)
  fields : ∀ s s' : State, s'.n = s.n → s'.fsm = s.fsm → s'.timer = s.timer → s'.out = s.out → P s → P s'

/-- The input of a state machine an operation of the application consists of. -/
def input : Op → List (Nat × FOp)
  | .sessionStarted c _ => [(c, .event .usageInitiated)]
  | .sessionStopped c => [(c, .event .becomeAvailable)]
  | .txStarted c => if 1 ≤ c then [(c, .event .usageInitiated)] else []
  | .txStopped c _ => [(c, .event .transactionStopped)]
  | .suspendEV c => [(c, .event .pauseChargingEV)]
  | .suspendEVSE c => [(c, .event .pauseChargingEVSE)]
  | .resume c => [(c, .event .startCharging)]
  | .error c e => [(c, .error e)]
  | .clear c u => [(c, .clear u)]
  | .clearAll c => [(c, .clearAll)]
  | .reservationStart c => [(c, .event .reserveConnector)]
  | .reservationEnd c => [(c, .event .reservationEnd)]
  | .enabled c => [(c, .event .becomeAvailable)]
  | .disabled c => [(c, .event .changeToUnavailable)]
  | .plugTimeout c => [(c, .event .transactionStopped)]
  | _ => []

section closed
variable {Q : Nat → FOp → Prop} {P : State → Prop}

theorem Closed.fold (_ : Closed Q P) {α : Type} (f : State → α → State) (hf : ∀ s a, P s → P (f s a)) :
    ∀ (l : List α) (s : State), P s → P (l.foldl f s) := by
  intro l
  induction l with
  | nil => intro s h; exact h
  | cons a l ih => intro s h; exact ih _ (hf s a h)

theorem Closed.execute (C : Closed Q P) (cs : List Nat) (op p : Bool) (s : State) (h : P s) :
    P (execute cs op p s) := by
  refine C.fold _ ?_ cs s h
  intro s a h
  unfold executeOne
  have h1 : P (if p then { s with db := upd s.db a op } else s) := by
    split
    · exact C.fields s _ rfl rfl rfl rfl h
    · exact h
  simp only
  split
  · apply C.emit _ _ (by simp)
    split
    · exact C.submit _ _ _ C.up h1
    · exact h1
  · apply C.emit _ _ (by simp)
    split
    · exact C.submit _ _ _ C.down h1
    · exact h1

theorem Closed.executeQueued (C : Closed Q P) (c : Nat) (s : State) (h : P s) :
    P (executeQueued c s) := by
  unfold Conn16.executeQueued
  split
  · exact h
  · exact C.execute _ _ _ _ (C.fields s _ rfl rfl rfl rfl h)

theorem Closed.firmwarePrepare (C : Closed Q P) (s : State) (h : P s) : P (firmwarePrepare s) := by
  have h1 := C.fields s
    { s with
      queue := fun c => if c ∈ (connectors s.n).filter s.tx then some ⟨false, false⟩ else s.queue c }
    rfl rfl rfl rfl h
  have h2 := C.fold (fun s c => Conn16.emit s (.disable c)) (fun s a h => C.emit _ s (by simp) h)
    ((connectors s.n).filter (fun c => !s.tx c)) _ h1
  unfold Conn16.firmwarePrepare
  simp only
  split
  · exact C.emit _ _ (by simp) h2
  · exact h2

theorem Closed.triggerAll (C : Closed Q P) (s : State) (h : P s) : P (triggerAll s) :=
  C.fold _ (fun s a h => C.submit a _ s (C.trig a) h) _ s h

theorem Closed.firmware (C : Closed Q P) (st : Firmware) (s : State) (h : P s) : P (firmware st s) := by
  have h1 : ∀ b, P { s with fwPending := b } := fun b => C.fields s _ rfl rfl rfl rfl h
  have hp : ∀ s1, P s1 → P (if s1.fwPending then Conn16.firmwarePrepare s1 else s1) := by
    intro s1 h
    split
    · exact C.firmwarePrepare _ h
    · exact h
  have hr : ∀ s2 : State, P s2 → P (((List.range (s2.n + 1)).filter s2.db).foldl
      (fun s c => Conn16.emit (if c = 0 then Conn16.submit 0 (.event .becomeAvailable) s else s)
        (.enable c)) s2) := by
    intro s2 h
    refine C.fold _ ?_ _ s2 h
    intro s a h
    apply C.emit _ _ (by simp)
    split
    · exact C.submit _ _ _ C.up h
    · exact h
  cases st with
  | ready => exact hp _ (h1 true)
  | failed => exact hp _ (h1 false)
  | installFailed => exact hr _ (hp _ (h1 false))
  | installed => exact hr _ (hp _ h)
  | other => exact hp _ h

theorem Closed.remote (C : Closed Q P) (r : Remote) (s : State) (h : P s) : P (remoteStart r s) := by
  have ha : ∀ cs s, P s → P (remoteAccept cs r s) := fun cs s h =>
    C.emit _ _ (by simp) (C.emit _ _ (by simp) h)
  have hp : ∀ cs s, P s → P (remoteProfile cs r s) := by
    intro cs s h
    unfold remoteProfile
    split
    · exact ha _ _ h
    · split
      · exact C.emit _ _ (by simp) h
      · split
        · exact ha _ _ (C.emit _ _ (by simp) h)
        · exact C.emit _ _ (by simp) h
  unfold remoteStart
  split
  · split
    · exact C.emit _ _ (by simp) h
    · split
      · exact C.emit _ _ (by simp) h
      · exact hp _ _ h
  · split
    · exact C.emit _ _ (by simp) h
    · exact hp _ _ h

theorem Closed.change (C : Closed Q P) (ci : Int) (op : Bool) (s : State) (h : P s) :
    P (change ci op s) := by
  unfold Conn16.change
  split
  · apply C.execute
    apply C.emit _ _ (by simp)
    exact C.fields s _ rfl rfl rfl rfl h
  · exact C.emit _ _ (by simp) h

theorem Closed.step (C : Closed Q P) (o : Op) (s : State) (h : P s)
    (hq : ∀ x ∈ input o, Q x.1 x.2) (h1 : ∀ c, o ≠ .timer c) (h2 : ∀ c, o ≠ .trigger c)
    (h3 : o ≠ .restart) : P (step s o) := by
  cases o with
  | timer c => exact absurd rfl (h1 c)
  | trigger c => exact absurd rfl (h2 c)
  | restart => exact absurd rfl h3
  | sessionStarted c a =>
    simp only [Conn16.step]
    split
    · exact C.submit _ _ _ (hq (c, _) (List.mem_singleton.2 rfl)) h
    · exact h
  | sessionStopped c =>
    simp only [Conn16.step]
    split
    · exact C.submit _ _ _ (hq (c, _) (List.mem_singleton.2 rfl)) (C.executeQueued c s h)
    · exact C.executeQueued c s h
  | txStarted c =>
    simp only [Conn16.step]
    split
    · rename_i hc
      have h0 : P { s with tx := upd s.tx c true } := C.fields s _ rfl rfl rfl rfl h
      unfold useReserved
      split
      · exact C.submit _ _ _ (hq (c, _) (by simp only [input, hc.1, if_true, List.mem_singleton])) h0
      · exact h0
    · exact h
  | txStopped c b =>
    simp only [Conn16.step]
    split
    · have h0 : P { s with waiting := s.waiting ++ [c], tx := upd s.tx c false } :=
        C.fields s _ rfl rfl rfl rfl h
      unfold finish
      split
      · exact h0
      · exact C.submit _ _ _ (hq (c, _) (List.mem_singleton.2 rfl)) h0
    · exact h
  | stopConf c =>
    simp only [Conn16.step]
    have hh : P (confirmed c s) := by
      unfold confirmed
      split
      · exact C.executeQueued _ _ (C.fields s _ rfl rfl rfl rfl h)
      · exact h
    split
    · exact C.firmwarePrepare _ hh
    · exact hh
  | suspendEV c => exact C.submit _ _ _ (hq (c, _) (List.mem_singleton.2 rfl)) h
  | suspendEVSE c => exact C.submit _ _ _ (hq (c, _) (List.mem_singleton.2 rfl)) h
  | resume c => exact C.submit _ _ _ (hq (c, _) (List.mem_singleton.2 rfl)) h
  | error c e => exact C.submit _ _ _ (hq (c, _) (List.mem_singleton.2 rfl)) h
  | clear c u => exact C.submit _ _ _ (hq (c, _) (List.mem_singleton.2 rfl)) h
  | clearAll c => exact C.submit _ _ _ (hq (c, _) (List.mem_singleton.2 rfl)) h
  | reservationStart c => exact C.submit _ _ _ (hq (c, _) (List.mem_singleton.2 rfl)) h
  | reservationEnd c => exact C.submit _ _ _ (hq (c, _) (List.mem_singleton.2 rfl)) h
  | enabled c => exact C.submit _ _ _ (hq (c, _) (List.mem_singleton.2 rfl)) h
  | disabled c => exact C.submit _ _ _ (hq (c, _) (List.mem_singleton.2 rfl)) h
  | plugTimeout c => exact C.submit _ _ _ (hq (c, _) (List.mem_singleton.2 rfl)) h
  | change ci op => exact C.change ci op s h
  | remote r => exact C.remote r s h
  | firmware st => exact C.firmware st s h
  | reportAll => exact C.triggerAll s h

end closed

theorem boot_fields (s : State) : (boot s).n = s.n ∧ (boot s).db = s.db ∧
    (boot s).fsm = (fun c => ⟨if s.db c then .available else .unavailable, []⟩) ∧
    (boot s).tx = (fun _ => false) ∧ (boot s).waiting = [] ∧ (boot s).queue = (fun _ => none) ∧
    (boot s).timer = (fun _ => none) ∧ (boot s).fwPending = false ∧
    (boot s).out = s.out ++ (List.range (s.n + 1)).map
      (fun c => if s.db c then .enable c else .disable c) := by
  have key : ∀ (l : List Nat) (s1 : State),
      let r := l.foldl (fun s c => emit s (if s.db c then .enable c else .disable c)) s1
      r.n = s1.n ∧ r.db = s1.db ∧ r.fsm = s1.fsm ∧ r.tx = s1.tx ∧ r.waiting = s1.waiting ∧
      r.queue = s1.queue ∧ r.timer = s1.timer ∧ r.fwPending = s1.fwPending ∧
      r.out = s1.out ++ l.map (fun c => if s1.db c then .enable c else .disable c) := by
    intro l
    induction l with
    | nil => intro s1; simp
    | cons a l ih =>
      intro s1
      simp only [List.foldl_cons]
      obtain ⟨h1, h2, h3, h4, h5, h6, h7, h8, h9⟩ :=
        ih (emit s1 (if s1.db a then .enable a else .disable a))
      refine ⟨h1, h2, h3, h4, h5, h6, h7, h8, ?_⟩
      refine h9.trans ?_
      simp only [emit, List.map_cons, List.append_assoc, List.singleton_append]
      rfl
  exact key _ _

theorem step_n (s : State) (o : Op) : (step s o).n = s.n := by
  have C : Closed (fun _ _ => True) (fun s' : State => s'.n = s.n) :=
    { up := trivial, down := trivial, trig := fun _ => trivial
      submit := fun c o s' _ h => (submit_fields c o s').1.trans h
      emit := fun _ _ _ h => h
      fields := fun _ _ h1 _ _ _ h => h1.trans h }
  by_cases h1 : ∃ c, o = .timer c
  · obtain ⟨c, rfl⟩ := h1; simp only [step]; split <;> rfl
  by_cases h2 : ∃ c, o = .trigger c
  · obtain ⟨c, rfl⟩ := h2; simp only [step]; split <;> rfl
  by_cases h3 : o = .restart
  · subst h3; exact (boot_fields s).1
  exact C.step o s rfl (fun _ _ => trivial) (fun c e => h1 ⟨c, e⟩) (fun c e => h2 ⟨c, e⟩) h3

theorem run_n (ops : List Op) : ∀ s : State, (run s ops).n = s.n := by
  induction ops with
  | nil => intro s; rfl
  | cons o ops ih => intro s; exact (ih (step s o)).trans (step_n s o)

theorem run_append (s : State) (p q : List Op) : run s (p ++ q) = run (run s p) q := by
  simp [run]

theorem run_cons (s : State) (o : Op) (q : List Op) : run s (o :: q) = run (step s o) q := rfl

end Verif.Conn16
