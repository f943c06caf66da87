import Verif.Tx.Charging

/- Facts about the reset requests that wait for transactions. -/
set_option linter.constructorNameAsVariable false

namespace Verif.Tx

open Verif.Auth (Str Token)

/-- A call of `reset_callback` because of a scheduled request. -/
def isIdleReset : Out → Bool
  | .reset _ .onIdle => true
  | _ => false

/-- From `s` to `s'` nothing changes about resets and no transaction disappears. -/
structure Quiet (s s' : State) : Prop where
  conns : s'.conns = s.conns
  sched : s'.resetScheduled = s.resetScheduled
  evses : s'.resetEvses = s.resetEvses
  act : ∀ e, active s e = true → active s' e = true
  out : ∃ l, s'.out = s.out ++ l ∧ ∀ o ∈ l, isIdleReset o = false

theorem Quiet.refl (s : State) : Quiet s s := ⟨rfl, rfl, rfl, fun _ h => h, [], by simp, by simp⟩

theorem Quiet.trans {a b c : State} (h : Quiet a b) (h' : Quiet b c) : Quiet a c := by
  obtain ⟨l, hl, hl'⟩ := h.out
  obtain ⟨m, hm, hm'⟩ := h'.out
  refine ⟨by rw [h'.conns, h.conns], by rw [h'.sched, h.sched], by rw [h'.evses, h.evses],
    fun e he => h'.act e (h.act e he), l ++ m, by rw [hm, hl, List.append_assoc], ?_⟩
  intro o ho
  rcases List.mem_append.mp ho with ho | ho
  · exact hl' o ho
  · exact hm' o ho

theorem Quiet.emit (s : State) (o : Out) (ho : isIdleReset o = false) : Quiet s (emit s o) :=
  ⟨rfl, rfl, rfl, fun _ h => h, [o], rfl, by simpa using ho⟩

theorem Quiet.setTx (s : State) (e : Nat) (t : Tx) : Quiet s (setTx s e (some t)) := by
  refine ⟨rfl, rfl, rfl, ?_, [], by simp [Tx.setTx], by simp⟩
  intro e' he'
  unfold active at he' ⊢
  rw [setTx_tx]
  split
  · rfl
  · exact he'

theorem Quiet.deleteRow (s : State) (x : Str) : Quiet s (deleteRow x s) := by
  unfold Tx.deleteRow
  split
  · exact ⟨rfl, rfl, rfl, fun _ h => h, [], by simp, by simp⟩
  · exact Quiet.refl s

theorem Quiet.deleteOwn (s : State) (e : Nat) : Quiet s (deleteOwn e s) := by
  unfold Tx.deleteOwn
  split
  · exact Quiet.refl s
  · exact Quiet.deleteRow s _

theorem Quiet.insertRow (s : State) (e : Nat) (t : Tx) : Quiet s (insertRow e t s) := by
  unfold Tx.insertRow
  split
  · exact ⟨rfl, rfl, rfl, fun _ h => h, [], by simp, by simp⟩
  · exact Quiet.refl s

theorem Quiet.updateRows (s : State) (x : Str) (f : Row → Row) : Quiet s (updateRows s x f) := by
  unfold Tx.updateRows
  split
  · exact ⟨rfl, rfl, rfl, fun _ h => h, [], by simp, by simp⟩
  · exact Quiet.refl s

theorem Quiet.bump (s : State) (e : Nat) : Quiet s (bump e s) := by
  unfold Tx.bump
  split
  · exact Quiet.refl s
  · dsimp only
    split
    · exact (Quiet.setTx s e _).trans (Quiet.updateRows _ _ _)
    · exact Quiet.setTx s e _

theorem Quiet.markTokenSent (s : State) (e : Nat) : Quiet s (markTokenSent e s) := by
  unfold Tx.markTokenSent
  split
  · exact Quiet.refl s
  · dsimp only
    split
    · exact (Quiet.setTx s e _).trans (Quiet.updateRows _ _ _)
    · exact Quiet.setTx s e _

theorem Quiet.send (s : State) (e : Nat) (ty : EventType) (tr : Trigger) (w : Bool) (tok : Option Token) :
    Quiet s (send e ty tr w tok s) := by
  unfold Tx.send
  split
  · exact Quiet.refl s
  · dsimp only
    split
    · exact Quiet.emit s _ rfl
    · exact ⟨rfl, rfl, rfl, fun _ h => h, [_], rfl, by simp [isIdleReset]⟩

theorem Quiet.exec : ∀ (l : List (State → State)), (∀ f ∈ l, ∀ s, Quiet s (f s)) → ∀ s, Quiet s (exec s l) := by
  intro l
  induction l with
  | nil => intro _ s; exact Quiet.refl s
  | cons f l ih =>
    intro hl s
    rw [exec_cons]
    exact (hl f (by simp) s).trans (ih (fun f' hf' => hl f' (List.mem_cons_of_mem _ hf')) _)

/-- Operations other than finishing a transaction, a Reset request and a restart. -/
def Bystander : Op → Prop
  | .finish _ _ _ _ => False
  | .resetReq _ _ _ _ => False
  | .boot _ => False
  | _ => True

theorem Quiet.op (s : State) (o : Op) (hb : Bystander o) : Quiet s (Tx.exec s (steps s o)) := by
  have thr : ∀ f ∈ [fun s => Tx.emit s Out.threw], ∀ s, Quiet s (f s) := by
    intro f hf s
    rw [List.mem_singleton.mp hf]; exact Quiet.emit s _ rfl
  have two : ∀ (e : Nat) (ty : EventType) (tr : Trigger) (w : Bool) (tok : Option Token),
      ∀ f ∈ [Tx.bump e, Tx.send e ty tr w tok], ∀ s, Quiet s (f s) := by
    intro e ty tr w tok f hf s
    rcases List.mem_cons.mp hf with hf | hf
    · rw [hf]; exact Quiet.bump s e
    · rw [List.mem_singleton.mp hf]; exact Quiet.send s e ty tr w tok
  cases o with
  | finish e tr tok ch => exact absurd hb id
  | resetReq oe ty al ar => exact absurd hb id
  | boot conns => exact absurd hb id
  | start e k x tr tok rid ch =>
    refine Quiet.exec _ ?_ s
    simp only [Tx.steps]
    split
    · exact thr
    · intro f hf s'
      rcases List.mem_append.mp hf with hf | hf
      · rcases List.mem_append.mp hf with hf | hf
        · rw [List.mem_singleton.mp hf]; exact Quiet.setTx s' e _
        · unfold openSteps at hf
          split at hf
          · cases hf
          · split at hf
            · rw [List.mem_singleton.mp hf]; exact Quiet.insertRow s' e _
            · rcases List.mem_cons.mp hf with hf | hf
              · rw [hf]; exact Quiet.deleteOwn s' e
              · rw [List.mem_singleton.mp hf]; exact Quiet.insertRow s' e _
      · split at hf
        · exact thr f hf s'
        · exact two _ _ _ _ _ f hf s'
  | authorized e tok =>
    refine Quiet.exec _ ?_ s
    simp only [Tx.steps]
    split
    · exact thr
    · split
      · intro f hf; cases hf
      · split
        · intro f hf; cases hf
        · intro f hf s'
          rcases List.mem_cons.mp hf with hf | hf
          · rw [hf]; exact Quiet.markTokenSent s' e
          · exact two _ _ _ _ _ f hf s'
  | charging e st tr =>
    refine Quiet.exec _ ?_ s
    simp only [Tx.steps]
    split
    · exact thr
    · split
      · intro f hf; cases hf
      · split
        · intro f hf; cases hf
        · intro f hf s'
          rcases List.mem_cons.mp hf with hf | hf
          · rw [hf]; exact Quiet.setTx s' e _
          · exact two _ _ _ _ _ f hf s'
  | meter e =>
    refine Quiet.exec _ ?_ s
    simp only [Tx.steps]
    split
    · intro f hf; cases hf
    · exact two _ _ _ _ _
  | triggerMessage oe =>
    refine Quiet.exec _ ?_ s
    cases oe with
    | none =>
      simp only [Tx.steps]
      intro f hf s'
      obtain ⟨e, _, hfe⟩ := List.mem_flatMap.mp hf
      exact two _ _ _ _ _ f hfe s'
    | some e =>
      simp only [Tx.steps]
      split
      · exact thr
      · exact two _ _ _ _ _
  | remoteStart e tok rid => exact ⟨rfl, rfl, rfl, fun _ h => h, [], by simp [steps, Tx.exec], by simp⟩
  | setResume b => exact ⟨rfl, rfl, rfl, fun _ h => h, [], by simp [steps, Tx.exec], by simp⟩
  | disk ok => exact ⟨rfl, rfl, rfl, fun _ h => h, [], by simp [steps, Tx.exec], by simp⟩

theorem mem_evseIds (conns : List Nat) (e : Nat) : e ∈ evseIds conns ↔ 1 ≤ e ∧ e ≤ conns.length := by
  unfold evseIds
  rw [List.mem_map]
  constructor
  · rintro ⟨a, ha, rfl⟩
    have := List.mem_range.mp ha
    omega
  · intro h
    exact ⟨e - 1, List.mem_range.mpr (by omega), by omega⟩

theorem any_active (s : State) : (evseIds s.conns).any (active s) = true ↔ AnyActive s := by
  rw [List.any_eq_true]
  constructor
  · rintro ⟨e, he, ha⟩
    exact ⟨e, ((mem_evseIds _ _).mp he).1, ((mem_evseIds _ _).mp he).2, ha⟩
  · rintro ⟨e, h1, h2, ha⟩
    exact ⟨e, (mem_evseIds _ _).mpr ⟨h1, h2⟩, ha⟩

/-- What is left of a finished transaction before the resets are looked at. -/
theorem finish_facts (s : State) (e : Nat) (tr : Trigger) (tok : Option Token) (ch : Charging)
    (he : evseExists s.conns e = true) (ha : active s e = true) :
    ∃ s1 ev, exec s (steps s (.finish e tr tok ch)) = afterFinish e s1 ∧ s1.conns = s.conns ∧
      s1.resetScheduled = s.resetScheduled ∧ s1.resetEvses = s.resetEvses ∧
      (∀ e', active s1 e' = if e' = e then false else active s e') ∧ s1.out = s.out ++ [Out.event ev] := by
  unfold active at ha
  obtain ⟨t, ht⟩ := Option.isSome_iff_exists.mp ha
  have hb : ∀ s0 : State, (∃ t0, s0.tx e = some t0) → ∃ s1 ev, send e .ended tr false (if tr = .stopAuthorized then tok else none) (bump e s0) = s1 ∧
      s1.conns = s0.conns ∧ s1.resetScheduled = s0.resetScheduled ∧ s1.resetEvses = s0.resetEvses ∧
      (∀ e', e' ≠ e → s1.tx e' = s0.tx e') ∧ s1.out = s0.out ++ [Out.event ev] := by
    intro s0 ⟨t0, ht0⟩
    have q1 := Quiet.bump s0 e
    have btx : ∃ t1, (bump e s0).tx e = some t1 ∧ (∀ e', e' ≠ e → (bump e s0).tx e' = s0.tx e') ∧ (bump e s0).out = s0.out := by
      unfold Tx.bump
      rw [ht0]
      dsimp only
      split
      · unfold updateRows
        split
        · exact ⟨_, by simp only [Tx.setTx, if_true]; rfl, by intro e' he'; simp [Tx.setTx, he'], rfl⟩
        · exact ⟨_, by simp only [Tx.setTx, if_true]; rfl, by intro e' he'; simp [Tx.setTx, he'], rfl⟩
      · exact ⟨_, by simp only [Tx.setTx, if_true]; rfl, by intro e' he'; simp [Tx.setTx, he'], rfl⟩
    obtain ⟨t1, ht1, hother, hout⟩ := btx
    have stx : ∃ ev, (send e .ended tr false (if tr = .stopAuthorized then tok else none) (bump e s0)).out = (bump e s0).out ++ [Out.event ev] ∧
        (send e .ended tr false (if tr = .stopAuthorized then tok else none) (bump e s0)).tx = (bump e s0).tx := by
      unfold Tx.send
      rw [ht1]
      dsimp only
      split
      · exact ⟨_, rfl, rfl⟩
      · exact ⟨_, rfl, rfl⟩
    obtain ⟨ev, hev, htx⟩ := stx
    have q2 := Quiet.send (bump e s0) e .ended tr false (if tr = .stopAuthorized then tok else none)
    exact ⟨_, ev, rfl, by rw [q2.conns, q1.conns], by rw [q2.sched, q1.sched], by rw [q2.evses, q1.evses],
      by intro e' he'; rw [htx]; exact hother e' he', by rw [hev, hout]⟩
  obtain ⟨s1, ev, h1, h2, h3, h4, h5, h6⟩ := hb (setTx s e (some { t with charging := some ch, stopped := true }))
    ⟨_, by simp [Tx.setTx]; rfl⟩
  have q3 := Quiet.deleteRow s1 t.id
  refine ⟨setTx (deleteRow t.id s1) e none, ev, ?_, ?_, ?_, ?_, ?_, ?_⟩
  · simp only [steps]
    rw [if_neg (by simp [he])]
    rw [ht]
    dsimp only
    simp only [exec_cons, exec_nil]
    rw [h1]
  · show (deleteRow t.id s1).conns = _
    rw [q3.conns, h2]; rfl
  · show (deleteRow t.id s1).resetScheduled = _
    rw [q3.sched, h3]; rfl
  · show (deleteRow t.id s1).resetEvses = _
    rw [q3.evses, h4]; rfl
  · intro e'
    unfold active
    rw [setTx_tx]
    split
    · rfl
    · rename_i hne
      have : (deleteRow t.id s1).tx e' = s1.tx e' := by unfold Tx.deleteRow; split <;> rfl
      rw [this, h5 e' hne, setTx_tx, if_neg hne]
  · show (deleteRow t.id s1).out = _
    have : (deleteRow t.id s1).out = s1.out := by unfold Tx.deleteRow; split <;> rfl
    rw [this, h6]; rfl

/-- Finishing at an EVSE without transaction, or at an unknown EVSE. -/
theorem finish_idle (s : State) (e : Nat) (tr : Trigger) (tok : Option Token) (ch : Charging)
    (h : ¬(evseExists s.conns e = true ∧ active s e = true)) :
    Quiet s (exec s (steps s (.finish e tr tok ch))) := by
  simp only [steps]
  split
  · exact Quiet.emit s _ rfl
  · rename_i h1
    cases ht : s.tx e with
    | none => exact Quiet.refl s
    | some t => exact absurd ⟨by simpa using h1, by simp [active, ht]⟩ h

/-- `afterFinish` leaves connections and transactions alone. -/
theorem afterFinish_active (e : Nat) (s : State) (e' : Nat) : active (afterFinish e s) e' = active s e' := by
  unfold active
  rw [(afterFinish_facts e s).1]

theorem afterFinish_conns (e : Nat) (s : State) : (afterFinish e s).conns = s.conns := by
  unfold afterFinish
  split
  · rfl
  · split
    · split <;> rfl
    · split <;> rfl

/-- What a Reset request changes. -/
theorem reset_facts (s : State) (oe : Option Nat) (ty : ResetType) (al : Bool) (ar : Option Bool) :
    ∃ l, (exec s (steps s (.resetReq oe ty al ar))).out = s.out ++ l ∧ (∀ o ∈ l, isIdleReset o = false) ∧
      (exec s (steps s (.resetReq oe ty al ar))).conns = s.conns ∧
      (exec s (steps s (.resetReq oe ty al ar))).tx = s.tx ∧
      (exec s (steps s (.resetReq oe ty al ar))).resetScheduled =
        (s.resetScheduled || (!unknownEvse s.conns oe && decide (resetStatus s oe ty al ar = .scheduled))) ∧
      (exec s (steps s (.resetReq oe ty al ar))).resetEvses =
        if !unknownEvse s.conns oe && decide (resetStatus s oe ty al ar = .scheduled) then (schedule oe s).resetEvses
        else s.resetEvses := by
  have emits : ∀ (l : List Out) (s0 : State),
      exec s0 (l.map (fun o => fun s => emit s o)) = { s0 with out := s0.out ++ l } := by
    intro l
    induction l with
    | nil => intro s0; simp [exec]
    | cons o l ih => intro s0; rw [List.map_cons, exec_cons, ih]; simp [emit]
  by_cases hu : unknownEvse s.conns oe = true
  · refine ⟨[.threw], ?_⟩
    simp only [steps]
    rw [if_pos hu]
    exact ⟨rfl, by simp [isIdleReset], rfl, rfl, by simp [exec_cons, exec_nil, emit, hu], by simp [exec_cons, exec_nil, emit, hu]⟩
  · simp only [steps]
    rw [if_neg hu]
    have hu' : unknownEvse s.conns oe = false := by simpa using hu
    let st := resetStatus s oe ty al ar
    let mid : List Out := if st = .rejected ∨ (resetActive s oe).isEmpty = true then []
      else if ty = .immediate then (resetActive s oe).map Out.stop else (resetIdle s oe).map Out.unavailable
    let last : List Out := if st = .accepted then [Out.reset oe .immediate] else []
    have hsteps : ((if resetStatus s oe ty al ar = .scheduled then [schedule oe] else []) ++
        [fun s => emit s (Out.resetAnswer (resetStatus s oe ty al ar))] : List (State → State)) =
        ((if resetStatus s oe ty al ar = .scheduled then [schedule oe] else []) ++
        [fun s => emit s (Out.resetAnswer (resetStatus s oe ty al ar))] : List (State → State)) := rfl
    have htail : (([fun s' => emit s' (Out.resetAnswer (resetStatus s oe ty al ar))] : List (State → State)) ++
        (if resetStatus s oe ty al ar = .rejected ∨ (resetActive s oe).isEmpty = true then []
         else if ty = .immediate then (resetActive s oe).map (fun e => fun s => emit s (.stop e))
         else (resetIdle s oe).map (fun e => fun s => emit s (.unavailable e))) ++
        (if resetStatus s oe ty al ar = .accepted then [fun s => emit s (.reset oe .immediate)] else [])) =
        ([Out.resetAnswer st] ++ mid ++ last).map (fun o => fun s => emit s o) := by
      rw [List.map_append, List.map_append]
      congr 1
      · congr 1
        show _ = List.map _ mid
        simp only [mid, st]
        split
        · rfl
        · split
          · rw [List.map_map]; rfl
          · rw [List.map_map]; rfl
      · show _ = List.map _ last
        simp only [last, st]
        split <;> rfl
    rw [List.append_assoc, List.append_assoc, ← List.append_assoc [_], htail, exec_append, emits]
    refine ⟨[Out.resetAnswer st] ++ mid ++ last, ?_, ?_, ?_, ?_, ?_, ?_⟩
    · show (exec s _).out ++ _ = _
      congr 1
      split <;> rfl
    · intro o ho
      simp only [List.mem_append] at ho
      rcases ho with (ho | ho) | ho
      · rw [List.mem_singleton.mp ho]; rfl
      · simp only [mid] at ho
        split at ho
        · cases ho
        · split at ho
          · obtain ⟨_, _, rfl⟩ := List.mem_map.mp ho; rfl
          · obtain ⟨_, _, rfl⟩ := List.mem_map.mp ho; rfl
      · simp only [last] at ho
        split at ho
        · rw [List.mem_singleton.mp ho]; rfl
        · cases ho
    · show (exec s _).conns = _
      split <;> rfl
    · show (exec s _).tx = _
      split <;> rfl
    · show (exec s _).resetScheduled = _
      rw [hu']
      split <;> rename_i h <;> simp [h, exec_cons, exec_nil, schedule]
    · show (exec s _).resetEvses = _
      rw [hu']
      split <;> rename_i h <;> simp [h, exec_cons, exec_nil]

end Verif.Tx
