import Verif.Tx.Theorems

/-!
# The reason of the end in TransactionEvent requests (C61)
-/
set_option linter.constructorNameAsVariable false

namespace Verif.Tx

open Verif.Auth (Str Token ciEq)

/-- Every event sent so far tells why the transaction was stopped exactly if it is the event of its end. -/
def Reasons (out : List Out) : Prop := ∀ ev, Out.event ev ∈ out → (ev.stopped = true ↔ ev.type = .ended)

/-- Only the transaction of the EVSE `x` is marked as stopped. -/
structure SInv (x : Option Nat) (s : State) : Prop where
  mem : ∀ e t, s.tx e = some t → (t.stopped = true ↔ x = some e)
  out : Reasons s.out

theorem SInv.congr {x : Option Nat} {s s' : State} (h : SInv x s) (h1 : s'.tx = s.tx) (h2 : s'.out = s.out) : SInv x s' :=
  ⟨by rw [h1]; exact h.mem, by rw [h2]; exact h.out⟩

theorem SInv.emit {x : Option Nat} {s : State} (h : SInv x s) (o : Out) (ho : ∀ ev, o = .event ev → (ev.stopped = true ↔ ev.type = .ended)) :
    SInv x (emit s o) :=
  ⟨h.mem, fun ev hev => by
    rcases List.mem_append.mp hev with hev | hev
    · exact h.out ev hev
    · exact ho ev (List.mem_singleton.mp hev).symm⟩

theorem SInv.setTx {x : Option Nat} {s : State} (h : SInv x s) (e : Nat) (t : Option Tx) (ht : ∀ t', t = some t' → (t'.stopped = true ↔ x = some e)) :
    SInv x (setTx s e t) :=
  ⟨fun e' t' ht' => by
    rw [setTx_tx] at ht'
    split at ht'
    · next he => rw [he]; exact ht t' ht'
    · exact h.mem e' t' ht', h.out⟩

theorem SInv.updateRows {x : Option Nat} {s : State} (h : SInv x s) (y : Str) (f : Row → Row) : SInv x (updateRows s y f) :=
  h.congr (by unfold Tx.updateRows; split <;> rfl) (by unfold Tx.updateRows; split <;> rfl)

theorem SInv.deleteRow {x : Option Nat} {s : State} (h : SInv x s) (y : Str) : SInv x (deleteRow y s) :=
  h.congr (by unfold Tx.deleteRow; split <;> rfl) (by unfold Tx.deleteRow; split <;> rfl)

theorem SInv.deleteOwn {x : Option Nat} {s : State} (h : SInv x s) (e : Nat) : SInv x (deleteOwn e s) := by
  unfold Tx.deleteOwn
  split
  · exact h
  · exact h.deleteRow _

theorem SInv.insertRow {x : Option Nat} {s : State} (h : SInv x s) (e : Nat) (t : Tx) : SInv x (insertRow e t s) :=
  h.congr (by unfold Tx.insertRow; split <;> rfl) (by unfold Tx.insertRow; split <;> rfl)

theorem SInv.bump {x : Option Nat} {s : State} (h : SInv x s) (e : Nat) : SInv x (bump e s) := by
  unfold Tx.bump
  split
  · exact h
  · rename_i t ht
    dsimp only
    have h1 := h.setTx e (some { t with seqNo := t.seqNo + 1 }) (fun t' ht' => by cases ht'; exact h.mem e t ht)
    split
    · exact h1.updateRows _ _
    · exact h1

theorem SInv.mark {x : Option Nat} {s : State} (h : SInv x s) (e : Nat) : SInv x (markTokenSent e s) := by
  unfold Tx.markTokenSent
  split
  · exact h
  · rename_i t ht
    dsimp only
    have h1 := h.setTx e (some { t with idTokenSent := true }) (fun t' ht' => by cases ht'; exact h.mem e t ht)
    split
    · exact h1.updateRows _ _
    · exact h1

theorem SInv.send {x : Option Nat} {s : State} (h : SInv x s) (e : Nat) (ty : EventType) (tr : Trigger) (w : Bool) (tok : Option Token)
    (hx : x = some e ↔ ty = .ended) : SInv x (send e ty tr w tok s) := by
  unfold Tx.send
  split
  · exact h
  · rename_i t ht
    have hm := (h.mem e t ht).trans hx
    dsimp only
    split
    · exact h.emit _ (fun ev hev => by cases hev; exact hm)
    · have h1 : ∀ m, SInv x { s with remote := m } := fun m => h.congr rfl rfl
      exact (h1 _).emit _ (fun ev hev => by cases hev; exact hm)

theorem SInv.boot {s : State} (h : Reasons s.out) (conns : List Nat) : SInv none (bootAll conns s) := by
  unfold bootAll
  have h0 : SInv none { powerOff s with conns := conns } := ⟨fun e t ht => (by cases ht), h⟩
  revert h0
  generalize ({ powerOff s with conns := conns } : State) = s0
  generalize evseIds conns = l
  induction l generalizing s0 with
  | nil => intro h0; exact h0
  | cons e l ih =>
    intro h0
    refine ih _ ?_
    unfold bootEvse
    split
    · exact h0
    · split
      · exact h0.setTx e _ (fun t' ht' => by cases ht'; simp)
      · exact h0.deleteRow _

theorem SInv.afterFinish {s : State} (h : SInv none s) (e : Nat) : SInv none (afterFinish e s) := by
  unfold Tx.afterFinish
  split
  · exact h
  · split
    · split
      · refine SInv.emit (x := none) ?_ _ (fun ev hev => by cases hev)
        exact h.congr rfl rfl
      · exact h
    · split
      · exact h.emit _ (fun ev hev => by cases hev)
      · refine SInv.emit (x := none) ?_ _ (fun ev hev => by cases hev)
        exact h.congr rfl rfl

theorem chain (P : State → Prop) : ∀ (l : List (State → State)), (∀ f ∈ l, ∀ s, P s → P (f s)) → ∀ s, P s → P (exec s l)
  | [], _, _, hs => hs
  | f :: l, hl, s, hs => chain P l (fun g hg => hl g (List.mem_cons_of_mem _ hg)) _ (hl f (List.mem_cons_self ..) s hs)

/-- The steps of all operations except the end of a transaction mark nothing as stopped. -/
theorem plain_steps (s : State) (hs : SInv none s) (o : Op) (ho : ∀ e tr tok ch, o ≠ .finish e tr tok ch) :
    ∀ f ∈ steps s o, ∀ s', SInv none s' → SInv none (f s') := by
  have thr : ∀ f ∈ [fun s => Tx.emit s Out.threw], ∀ s', SInv none s' → SInv none (f s') := by
    intro f hf s' hs'
    rw [List.mem_singleton.mp hf]; exact hs'.emit _ (fun ev hev => by cases hev)
  have two : ∀ (e : Nat) (ty : EventType) (tr : Trigger) (w : Bool) (tok : Option Token), ty ≠ .ended →
      ∀ f ∈ [Tx.bump e, Tx.send e ty tr w tok], ∀ s', SInv none s' → SInv none (f s') := by
    intro e ty tr w tok hty f hf s' hs'
    rcases List.mem_cons.mp hf with hf | hf
    · rw [hf]; exact hs'.bump e
    · rw [List.mem_singleton.mp hf]; exact hs'.send e ty tr w tok (by simp [hty])
  cases o with
  | start e k x tr tok rid ch =>
    simp only [steps]
    split
    · exact thr
    · intro f hf s' hs'
      rcases List.mem_append.mp hf with hf | hf
      · rcases List.mem_append.mp hf with hf | hf
        · rw [List.mem_singleton.mp hf]
          exact hs'.setTx e _ (fun t' ht' => by cases ht'; simp [newTx])
        · unfold openSteps at hf
          split at hf
          · cases hf
          · split at hf
            · rw [List.mem_singleton.mp hf]; exact hs'.insertRow e _
            · rcases List.mem_cons.mp hf with hf | hf
              · rw [hf]; exact hs'.deleteOwn e
              · rw [List.mem_singleton.mp hf]; exact hs'.insertRow e _
      · split at hf
        · exact thr f hf s' hs'
        · exact two e .started tr true tok (by simp) f hf s' hs'
  | authorized e tok =>
    simp only [steps]
    split
    · exact thr
    · split
      · intro f hf; cases hf
      · split
        · intro f hf; cases hf
        · intro f hf s' hs'
          rcases List.mem_cons.mp hf with hf | hf
          · rw [hf]; exact hs'.mark e
          · exact two e .updated _ _ _ (by simp) f hf s' hs'
  | charging e st tr =>
    simp only [steps]
    split
    · exact thr
    · split
      · intro f hf; cases hf
      · rename_i t ht
        split
        · intro f hf; cases hf
        · intro f hf s' hs'
          rcases List.mem_cons.mp hf with hf | hf
          · rw [hf]
            exact hs'.setTx e _ (fun t' ht' => by cases ht'; exact hs.mem e t ht)
          · exact two e .updated _ _ _ (by simp) f hf s' hs'
  | meter e =>
    simp only [steps]
    split
    · intro f hf; cases hf
    · exact two e .updated _ _ _ (by simp)
  | triggerMessage oe =>
    cases oe with
    | none =>
      simp only [steps]
      intro f hf s' hs'
      obtain ⟨e, _, hf⟩ := List.mem_flatMap.mp hf
      exact two e .updated _ _ _ (by simp) f hf s' hs'
    | some e =>
      simp only [steps]
      split
      · exact thr
      · exact two e .updated _ _ _ (by simp)
  | finish e tr tok ch => exact absurd rfl (ho e tr tok ch)
  | resetReq oe ty al ar =>
    simp only [steps]
    split
    · exact thr
    · intro f hf s' hs'
      have hem : ∀ o : Out, (∀ ev, o ≠ .event ev) → f = (fun s => Tx.emit s o) → SInv none (f s') := by
        intro o ho' hfo
        rw [hfo]
        exact hs'.emit _ (fun ev hev => absurd hev (ho' ev))
      rcases List.mem_append.mp hf with hf | hf
      · rcases List.mem_append.mp hf with hf | hf
        · rcases List.mem_append.mp hf with hf | hf
          · split at hf
            · rw [List.mem_singleton.mp hf]; exact hs'.congr rfl rfl
            · cases hf
          · exact hem _ (by simp) (List.mem_singleton.mp hf)
        · split at hf
          · cases hf
          · split at hf
            · obtain ⟨e, _, he⟩ := List.mem_map.mp hf
              exact hem _ (by simp) he.symm
            · obtain ⟨e, _, he⟩ := List.mem_map.mp hf
              exact hem _ (by simp) he.symm
      · split at hf
        · exact hem _ (by simp) (List.mem_singleton.mp hf)
        · cases hf
  | remoteStart e tok rid =>
    intro f hf s' hs'
    rw [List.mem_singleton.mp hf]; exact hs'.congr rfl rfl
  | setResume b =>
    intro f hf s' hs'
    rw [List.mem_singleton.mp hf]; exact hs'.congr rfl rfl
  | disk ok =>
    intro f hf s' hs'
    rw [List.mem_singleton.mp hf]; exact hs'.congr rfl rfl
  | boot conns =>
    intro f hf s' hs'
    rw [List.mem_singleton.mp hf]; exact SInv.boot hs'.out conns

theorem finish_steps (s : State) (hs : SInv none s) (e : Nat) (tr : Trigger) (tok : Option Token) (ch : Charging) :
    SInv none (exec s (steps s (.finish e tr tok ch))) ∧ ∀ k, Reasons (exec s ((steps s (.finish e tr tok ch)).take k)).out := by
  simp only [steps]
  split
  · have h1 : SInv none (emit s .threw) := hs.emit _ (fun ev hev => by cases hev)
    refine ⟨h1, fun k => ?_⟩
    cases k with
    | zero => exact hs.out
    | succ k => simpa [exec] using h1.out
  · split
    · refine ⟨hs, fun k => ?_⟩
      simpa [exec] using hs.out
    · rename_i t ht
      generalize htok : (if tr = .stopAuthorized then tok else none) = tok'
      have hother : ∀ e' t', e' ≠ e → s.tx e' = some t' → ¬ t'.stopped = true := fun e' t' _ h' hst => by
        have := (hs.mem e' t' h').mp hst
        cases this
      have h1 : SInv (some e) (setTx s e (some { t with charging := some ch, stopped := true })) :=
        ⟨fun e' t' ht' => (by
          rw [setTx_tx] at ht'
          split at ht'
          · next he => cases ht'; simp [he]
          · next he =>
            constructor
            · intro hst; exact absurd hst (hother e' t' he ht')
            · intro hst; cases hst; exact absurd rfl he), hs.out⟩
      have h2 := h1.bump e
      have h3 := h2.send e .ended tr false tok' (by simp)
      have h4 := h3.deleteRow t.id
      have h5 : SInv none (setTx (deleteRow t.id (send e .ended tr false tok'
          (bump e (setTx s e (some { t with charging := some ch, stopped := true }))))) e none) :=
        ⟨fun e' t' ht' => (by
          rw [setTx_tx] at ht'
          split at ht'
          · cases ht'
          · next he =>
            constructor
            · intro hst
              have := (h4.mem e' t' ht').mp hst
              cases this
              exact absurd rfl he
            · intro hst; cases hst), h4.out⟩
      have h6 := h5.afterFinish e
      refine ⟨h6, fun k => ?_⟩
      match k with
      | 0 => exact hs.out
      | 1 => exact h1.out
      | 2 => exact h2.out
      | 3 => exact h3.out
      | 4 => exact h4.out
      | 5 => exact h5.out
      | n + 6 => simpa [exec] using h6.out

theorem SInv.step {s : State} (hs : SInv none s) (c : Cmd) : SInv none (step s c) := by
  have hop : ∀ o, SInv none (exec s (steps s o)) ∧ ∀ k, Reasons (exec s ((steps s o).take k)).out := by
    intro o
    by_cases hfin : ∃ e tr tok ch, o = .finish e tr tok ch
    · obtain ⟨e, tr, tok, ch, rfl⟩ := hfin
      exact finish_steps s hs e tr tok ch
    · have hl := plain_steps s hs o (fun e tr tok ch h => hfin ⟨e, tr, tok, ch, h⟩)
      refine ⟨chain _ _ hl s hs, fun k => ?_⟩
      exact (chain _ _ (fun f hf => hl f (List.mem_of_mem_take hf)) s hs).out
  cases c with
  | op o => exact (hop o).1
  | cut o k => exact SInv.boot ((hop o).2 k) _

/-- **C61**: whatever happens (power cuts, failing writes, resumed transactions and reused ids included), a TransactionEvent tells why the transaction was stopped exactly
if it is the event of its end, and no transaction that runs is marked as stopped. -/
theorem C61_reason (conns : List Nat) (resume : Bool) (h : List Cmd) :
    Reasons (run (clean conns resume) h).out ∧ ∀ e t, (run (clean conns resume) h).tx e = some t → t.stopped = false := by
  have key : ∀ (h : List Cmd) (s : State), SInv none s → SInv none (run s h) := by
    intro h
    induction h with
    | nil => intro s hs; exact hs
    | cons c h ih => intro s hs; exact ih _ (hs.step c)
  have hr := key h _ (show SInv none (clean conns resume) from ⟨fun e t ht => (by cases ht), fun ev hev => (by cases hev)⟩)
  refine ⟨hr.out, fun e t ht => ?_⟩
  cases hst : t.stopped
  · rfl
  · have := (hr.mem e t ht).mp hst
    cases this

/-- A transaction resumed after a restart: of its four events only the last one tells a reason. -/
example : (events (run (clean [1] true) exRestart).out txX).map (fun ev => (ev.type, ev.stopped)) =
    [(.started, false), (.updated, false), (.updated, false), (.ended, true)] := by decide

end Verif.Tx
