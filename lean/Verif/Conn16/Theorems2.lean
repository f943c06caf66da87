import Verif.Conn16.Lemmas3

set_option linter.constructorNameAsVariable false

/-!
# Property C71: what the calls of the application do to the status of a connector
-/

namespace Verif.Conn16

/-- What an operation means for the status of connector `c`: the statuses it acts on and the status
they become. `none`: the operation is not about the status of this connector. -/
def moves (c : Nat) : Op → Option (List Status × Status)
  | .sessionStarted x authorized =>
    if x = c then
      some (if authorized then [.available, .finishing, .unavailable, .reserved]
        else [.available, .finishing, .unavailable], .preparing)
    else none
  | .sessionStopped x =>
    if x = c then some ([.preparing, .charging, .suspendedEV, .suspendedEVSE, .finishing], .available) else none
  | .txStarted x => if x = c then some ([.reserved], .preparing) else none
  | .txStopped x evDisconnected =>
    if x = c ∧ evDisconnected = false then
      some ([.preparing, .charging, .suspendedEV, .suspendedEVSE], .finishing)
    else none
  | .suspendEV x =>
    if x = c then some ([.available, .preparing, .charging, .suspendedEVSE, .unavailable], .suspendedEV) else none
  | .suspendEVSE x =>
    if x = c then some ([.available, .preparing, .charging, .suspendedEV, .unavailable], .suspendedEVSE) else none
  | .resume x =>
    if x = c then some ([.available, .preparing, .suspendedEV, .suspendedEVSE, .unavailable], .charging) else none
  | .reservationStart x => if x = c then some ([.available], .reserved) else none
  | .reservationEnd x => if x = c then some ([.reserved], .available) else none
  | .enabled x =>
    if x = c then
      some ([.preparing, .charging, .suspendedEV, .suspendedEVSE, .finishing, .reserved, .unavailable], .available)
    else none
  | .disabled x =>
    if x = c then
      some ([.available, .charging, .suspendedEV, .suspendedEVSE, .finishing, .reserved], .unavailable)
    else none
  | .plugTimeout x =>
    if x = c then some ([.preparing, .charging, .suspendedEV, .suspendedEVSE], .finishing) else none
  | _ => none

/-- Operations that raise or clear errors, or start the charge point. -/
def isErrorOp : Op → Bool
  | .error _ _ | .clear _ _ | .clearAll _ | .restart => true
  | _ => false

theorem visible_of_not_faulted {m : Fsm} (h : visible m ≠ .faulted) : isFaulted m = false ∧ visible m = m.state := by
  unfold visible at *
  cases hf : isFaulted m with
  | false => simp
  | true => simp [hf] at h

/-- an event at a connector without fault -/
theorem event_visible {m : Fsm} (h : visible m ≠ .faulted) (ev : Event) :
    visible (fstep m (.event ev)).1 = (next (visible m) ev).getD (visible m) := by
  obtain ⟨h1, h2⟩ := visible_of_not_faulted h
  rw [h2]
  simp only [fstep]
  cases hn : next m.state ev with
  | none => simpa using h2
  | some st =>
    have : isFaulted { m with state := st } = false := h1
    simp [visible, this]

/-- **C71**: the status of a connector without fault after any operation. -/
theorem C71_status (n : Nat) (ops : List Op) (o : Op) (c : Nat) (h1 : 1 ≤ c) (h2 : c ≤ n)
    (ho : isErrorOp o = false) (ht : ∀ b, o = .txStopped c b → (run (clean n) ops).tx c = true)
    (hs : getState (run (clean n) ops) c ≠ .faulted) :
    getState (step (run (clean n) ops) o) c =
      match moves c o with
      | some (froms, to) => if getState (run (clean n) ops) c ∈ froms then to else getState (run (clean n) ops) c
      | none => getState (run (clean n) ops) c := by
  have hn : (run (clean n) ops).n = n := run_n ops (clean n)
  generalize run (clean n) ops = s at *
  subst hn
  have hg : ∀ s' : State, s'.n = s.n → getState s' c = visible (s'.fsm c) := fun s' e => by
    rw [getState, if_pos (by rw [e]; exact h2)]
  have hgs := hg s rfl
  rw [hg (step s o) (step_n s o)]
  rw [hgs] at hs ⊢
  have sub : ∀ (ev : Event) (s1 : State), s1.n = s.n → s1.fsm c = s.fsm c →
      visible ((submit c (.event ev) s1).fsm c) = (next (visible (s.fsm c)) ev).getD (visible (s.fsm c)) := by
    intro ev s1 e1 e2
    rw [submit_fsm_self _ s1 (by rw [e1]; exact h2), e2]
    exact event_visible hs ev
  have oth : ∀ (x : Nat) (fo : FOp) (s1 : State), x ≠ c → s1.fsm c = s.fsm c →
      (submit x fo s1).fsm c = s.fsm c := by
    intro x fo s1 hx e
    rw [(submit_fsm_ne fo s1 (Ne.symm hx)).1]; exact e
  generalize hv : visible (s.fsm c) = v at *
  cases o with
  | restart => simp [isErrorOp] at ho
  | error x e => simp [isErrorOp] at ho
  | clear x u => simp [isErrorOp] at ho
  | clearAll x => simp [isErrorOp] at ho
  | timer x =>
    have : (step s (.timer x)).fsm = s.fsm := by simp only [step]; split <;> rfl
    rw [this]; exact hv
  | trigger x =>
    have : (step s (.trigger x)).fsm = s.fsm := by simp only [step]; split <;> rfl
    rw [this]; exact hv
  | stopConf x =>
    have h3 : (confirmed x s).fsm c = s.fsm c := by
      unfold confirmed
      split
      · exact (executeQueued_fields x { s with waiting := s.waiting.erase x }).2.2.2.2.1 c h1
      · rfl
    have : (step s (.stopConf x)).fsm c = s.fsm c := by
      simp only [step]
      split
      · rw [(firmwarePrepare_fields _).2.2.2.2.1]; exact h3
      · exact h3
    rw [this]; exact hv
  | change ci op => 
    have : (step s (.change ci op)).fsm c = s.fsm c := (change_fields ci op s).2.2.2 c h1
    rw [this]; exact hv
  | remote r =>
    have : (step s (.remote r)).fsm = s.fsm := (remote_fields r s).2.2.2.2.2.1
    rw [this]; exact hv
  | firmware st =>
    have : (step s (.firmware st)).fsm c = s.fsm c := (firmware_fields st s).2.2.1 c h1
    rw [this]; exact hv
  | reportAll =>
    have : (step s .reportAll).fsm = s.fsm := by
      rw [show step s .reportAll = triggerAll s from rfl]; unfold triggerAll; rw [fold_trigger_fsm]
    rw [this]; exact hv
  | sessionStarted x a =>
    simp only [step, moves]
    by_cases hx : x = c
    · subst hx
      rw [hgs, if_pos rfl]
      split
      · rw [sub _ s rfl rfl]; revert hs; revert ‹_ ∨ _›; cases v <;> cases a <;> simp [next]
      · rw [hv]; revert hs; revert ‹¬ _›; cases v <;> cases a <;> simp
    · rw [if_neg hx]
      split
      · rw [oth _ _ _ hx rfl]; exact hv
      · exact hv
  | sessionStopped x =>
    have h3 := (executeQueued_fields x s).2.2.2.2.1 c h1
    have h4 := (executeQueued_fields x s).1
    simp only [step, moves]
    by_cases hx : x = c
    · subst hx
      rw [if_pos rfl, hg _ h4, h3, hv]
      split
      · rw [sub _ _ h4 h3]; revert hs; revert ‹_ ∧ _›; cases v <;> simp [next]
      · rw [h3, hv]; revert hs; revert ‹¬ _›; cases v <;> simp
    · rw [if_neg hx]
      split
      · rw [oth _ _ _ hx h3]; exact hv
      · rw [h3]; exact hv
  | txStarted x =>
    simp only [step, moves]
    by_cases hx : x = c
    · subst hx
      have h3 : getState { s with tx := upd s.tx x true } x = v := hgs
      rw [if_pos rfl, if_pos ⟨h1, h2⟩, useReserved, h3]
      split
      · rw [sub _ { s with tx := upd s.tx x true } rfl rfl]; rename_i hr; subst hr; simp [next]
      · rename_i hr; simp [hr]; exact hv
    · rw [if_neg hx]
      split
      · unfold useReserved
        split
        · rw [oth _ _ { s with tx := upd s.tx x true } hx rfl]; exact hv
        · exact hv
      · exact hv
  | txStopped x b =>
    simp only [step, moves]
    by_cases hx : x = c
    · subst hx
      rw [if_pos (ht b rfl)]
      unfold finish
      cases b with
      | true => simp; exact hv
      | false =>
        simp only [Bool.false_eq_true, if_false, and_self, if_true]
        rw [sub _ { s with waiting := s.waiting ++ [x], tx := upd s.tx x false } rfl rfl]
        revert hs; cases v <;> simp [next]
    · have hm : ¬ (x = c ∧ b = false) := fun h => hx h.1
      simp only [if_neg hm]
      by_cases htx : s.tx x = true
      · rw [if_pos htx]
        unfold finish
        split
        · exact hv
        · rw [oth _ _ { s with waiting := s.waiting ++ [x], tx := upd s.tx x false } hx rfl]; exact hv
      · rw [if_neg htx]; exact hv
  | suspendEV x =>
    simp only [step, moves]
    by_cases hx : x = c
    · subst hx; rw [if_pos rfl, sub _ s rfl rfl]; revert hs; cases v <;> simp [next]
    · rw [if_neg hx, oth _ _ _ hx rfl]; exact hv
  | suspendEVSE x =>
    simp only [step, moves]
    by_cases hx : x = c
    · subst hx; rw [if_pos rfl, sub _ s rfl rfl]; revert hs; cases v <;> simp [next]
    · rw [if_neg hx, oth _ _ _ hx rfl]; exact hv
  | resume x =>
    simp only [step, moves]
    by_cases hx : x = c
    · subst hx; rw [if_pos rfl, sub _ s rfl rfl]; revert hs; cases v <;> simp [next]
    · rw [if_neg hx, oth _ _ _ hx rfl]; exact hv
  | reservationStart x =>
    simp only [step, moves]
    by_cases hx : x = c
    · subst hx; rw [if_pos rfl, sub _ s rfl rfl]; revert hs; cases v <;> simp [next]
    · rw [if_neg hx, oth _ _ _ hx rfl]; exact hv
  | reservationEnd x =>
    simp only [step, moves]
    by_cases hx : x = c
    · subst hx; rw [if_pos rfl, sub _ s rfl rfl]; revert hs; cases v <;> simp [next]
    · rw [if_neg hx, oth _ _ _ hx rfl]; exact hv
  | enabled x =>
    simp only [step, moves]
    by_cases hx : x = c
    · subst hx; rw [if_pos rfl, sub _ s rfl rfl]; revert hs; cases v <;> simp [next]
    · rw [if_neg hx, oth _ _ _ hx rfl]; exact hv
  | disabled x =>
    simp only [step, moves]
    by_cases hx : x = c
    · subst hx; rw [if_pos rfl, sub _ s rfl rfl]; revert hs; cases v <;> simp [next]
    · rw [if_neg hx, oth _ _ _ hx rfl]; exact hv
  | plugTimeout x =>
    simp only [step, moves]
    by_cases hx : x = c
    · subst hx; rw [if_pos rfl, sub _ s rfl rfl]; revert hs; cases v <;> simp [next]
    · rw [if_neg hx, oth _ _ _ hx rfl]; exact hv

/-- a session from the plug in to the plug out -/
example : getState (run (clean 1) [.sessionStarted 1 false, .txStarted 1, .resume 1]) 1 = .charging
    ∧ moves 1 (.suspendEV 1) = some ([.available, .preparing, .charging, .suspendedEVSE, .unavailable], .suspendedEV)
    ∧ getState (run (clean 1) [.sessionStarted 1 false, .txStarted 1, .resume 1, .suspendEV 1]) 1 = .suspendedEV := by
  decide

/-- The operations the status of connector `c` is made of are applied to it and to no other: errors. -/
theorem C71_error (s : State) (c : Nat) (h : c ≤ s.n) (e : Err)
    (hnew : ∀ x ∈ (s.fsm c).errors, x.uuid ≠ e.uuid) :
    getState (step s (.error c e)) c = (if e.fault then .faulted else getState s c) ∧
    ∀ c', c' ≠ c → getState (step s (.error c e)) c' = getState s c' := by
  have hany : (s.fsm c).errors.any (·.uuid == e.uuid) = false := by
    simp only [List.any_eq_false, beq_iff_eq]
    exact hnew
  constructor
  · rw [getState, if_pos (by rw [step_n]; exact h)]
    simp only [step]
    rw [submit_fsm_self _ s h, getState, if_pos h]
    have e1 : (fstep (s.fsm c) (.error e)).1 = { s.fsm c with errors := (s.fsm c).errors ++ [e] } := by
      simp only [fstep, hany, if_false, Bool.false_eq_true]
    have e2 : isFaulted { s.fsm c with errors := (s.fsm c).errors ++ [e] } = (isFaulted (s.fsm c) || e.fault) := by
      simp [isFaulted]
    rw [e1, visible, visible, e2]
    cases hf : e.fault <;> cases hg : isFaulted (s.fsm c) <;> simp
  · intro c' hc
    unfold getState
    rw [step_n]
    simp only [step]
    rw [(submit_fsm_ne _ s hc).1]

example : getState (step (run (clean 1) [.resume 1]) (.error 1 ⟨"a", 3, true, 0⟩)) 1 = .faulted := by decide

/-- A transaction was started on the connector and neither stopped since, nor the charge point
restarted. -/
def Running (c : Nat) (ops : List Op) : Prop :=
  ∃ p q, ops = p ++ .txStarted c :: q ∧ (∀ b, .txStopped c b ∉ q) ∧ .restart ∉ q

theorem tx_step (s : State) (o : Op) (c : Nat) (h1 : 1 ≤ c) (h2 : c ≤ s.n) :
    (step s o).tx c = true ↔ o = .txStarted c ∨ (s.tx c = true ∧ (∀ b, o ≠ .txStopped c b) ∧ o ≠ .restart) := by
  have sub : ∀ x fo (s1 : State), (submit x fo s1).tx = s1.tx := fun x fo s1 => (submit_fields x fo s1).2.1
  cases o with
  | sessionStarted x a => simp only [step]; split <;> simp [sub]
  | sessionStopped x =>
    simp only [step]; split <;> simp [sub, (executeQueued_fields x s).2.1]
  | txStarted x =>
    simp only [step]
    have hu : ∀ s1 : State, (useReserved x s1).tx = s1.tx := fun s1 => by
      unfold useReserved; split <;> simp [sub]
    by_cases hx : x = c
    · subst hx; rw [if_pos ⟨h1, h2⟩, hu]; simp [upd]
    · split
      · rw [hu]; simp [upd, hx, Ne.symm hx]
      · simp [hx]
  | txStopped x b =>
    simp only [step]
    have hu : ∀ s1 : State, (finish x b s1).tx = s1.tx := fun s1 => by
      unfold finish; split <;> simp [sub]
    by_cases hx : x = c
    · subst hx
      split
      · rw [hu]; simp [upd]
      · rename_i h; simp [h]
    · split
      · rw [hu]; simp [upd, hx, Ne.symm hx]
      · simp [hx]
  | stopConf x =>
    have h3 : (confirmed x s).tx = s.tx := by
      unfold confirmed
      split
      · exact (executeQueued_fields x { s with waiting := s.waiting.erase x }).2.1
      · rfl
    simp only [step]
    split
    · rw [(firmwarePrepare_fields _).2.1, h3]; simp
    · rw [h3]; simp
  | change ci op => rw [show step s (.change ci op) = change ci op s from rfl, (change_fields ci op s).1]; simp
  | remote r => rw [show step s (.remote r) = remoteStart r s from rfl, (remote_fields r s).1]; simp
  | firmware st => rw [show step s (.firmware st) = firmware st s from rfl, (firmware_fields st s).1]; simp
  | timer x => simp only [step]; split <;> simp [emit]
  | trigger x => simp only [step]; split <;> simp [emit]
  | reportAll =>
    have key : ∀ (l : List Nat) (s : State), (l.foldl (fun s c => submit c .trigger s) s).tx = s.tx := by
      intro l
      induction l with
      | nil => intro s; rfl
      | cons a l ih => intro s; simp only [List.foldl_cons]; rw [ih, sub]
    show (triggerAll s).tx c = true ↔ _
    unfold triggerAll
    rw [key]; simp
  | restart => rw [show step s .restart = boot s from rfl, (boot_fields s).2.2.2.1]; simp
  | _ => simp [step, sub]

/-- **C71**: the transactions other properties speak of are those the application started and did not
stop. -/
theorem C71_running (n : Nat) (ops : List Op) (c : Nat) (h1 : 1 ≤ c) (h2 : c ≤ n) :
    (run (clean n) ops).tx c = true ↔ Running c ops := by
  suffices H : ∀ (k : Nat) (ops : List Op), ops.length = k → ((run (clean n) ops).tx c = true ↔ Running c ops) from
    H ops.length ops rfl
  intro k
  induction k with
  | zero =>
    intro ops h
    have : ops = [] := List.length_eq_zero_iff.1 h
    subst this
    simp [run, clean, Running]
  | succ k ih =>
    intro ops h
    rcases List.eq_nil_or_concat ops with h0 | ⟨l, o, h0⟩
    · subst h0; simp at h
    subst h0
    rw [List.concat_eq_append] at *
    have hl : l.length = k := by simp at h; omega
    have hn : (run (clean n) l).n = n := run_n l (clean n)
    rw [run_append]
    show (step (run (clean n) l) o).tx c = true ↔ _
    rw [tx_step _ o c h1 (by rw [hn]; exact h2), ih l hl]
    constructor
    · rintro (rfl | ⟨⟨p, q, rfl, h3, h4⟩, h5, h6⟩)
      · exact ⟨l, [], rfl, by simp, by simp⟩
      · refine ⟨p, q ++ [o], by simp, fun b hm => ?_, fun hm => ?_⟩
        · rcases List.mem_append.1 hm with hm | hm
          · exact h3 b hm
          · exact h5 b (by simp at hm; exact hm.symm)
        · rcases List.mem_append.1 hm with hm | hm
          · exact h4 hm
          · exact h6 (by simp at hm; exact hm.symm)
    · rintro ⟨p, q, h3, h4, h5⟩
      rcases List.eq_nil_or_concat q with rfl | ⟨q', x, rfl⟩
      · have := List.append_inj_right' h3 rfl
        simp at this
        exact Or.inl this
      · rw [List.concat_eq_append] at h3 h4 h5
        have h6 : l ++ [o] = (p ++ .txStarted c :: q') ++ [x] := by rw [h3]; simp
        have h7 := List.append_inj_right' h6 rfl
        have h8 := List.append_inj_left' h6 rfl
        simp at h7
        subst h7
        exact Or.inr ⟨⟨p, q', h8, fun b hm => h4 b (by simp [hm]), fun hm => h5 (by simp [hm])⟩,
          fun b e => h4 b (by simp [e]), fun e => h5 (by simp [e])⟩

example : Running 1 [.txStarted 1, .txStopped 2 false] := ⟨[], [.txStopped 2 false], rfl, by simp, by simp⟩

end Verif.Conn16
