import Verif.MessageQueue.TxLemmas

/-! # What operations do to the parts of the state outside the core -/

namespace Verif.MQ

set_option linter.unusedSimpArgs false

/-- `s'` differs from `s` at most in queues, tables and an evicted-only extension of the trace. -/
structure Frame (s s' : St) : Prop where
  eq : s' = { s with txq := s'.txq, nq := s'.nq, dbN := s'.dbN, dbT := s'.dbT, writes := s'.writes, trace := s'.trace }
  txq : s'.txq.Sublist s.txq
  nq : s'.nq.Sublist s.nq
  trace : ∃ es, s'.trace = s.trace ++ es ∧ ∀ e ∈ es, ∃ i, e = .done i .evicted

theorem Frame.refl (s : St) : Frame s s := ⟨rfl, .refl _, .refl _, [], by simp, by simp⟩

theorem Frame.trans {a b c : St} (h1 : Frame a b) (h2 : Frame b c) : Frame a c := by
  obtain ⟨e1, t1, n1, es1, q1, d1⟩ := h1
  obtain ⟨e2, t2, n2, es2, q2, d2⟩ := h2
  refine ⟨?_, t2.trans t1, n2.trans n1, es1 ++ es2, by rw [q2, q1, List.append_assoc], ?_⟩
  · rw [e2, e1]
  · intro e he; rcases List.mem_append.1 he with h | h
    · exact d1 e h
    · exact d2 e h

theorem frame_dropFront (s : St) : Frame s s.dropFront := by
  unfold St.dropFront
  split
  · exact .refl s
  · rename_i m rest hn
    cases hq : s.cfg.queueAll
    · refine ⟨by simp [St.emit, hq], by simp [St.emit], ?_, [.done m.iid .evicted], by simp [St.emit], by simp⟩
      simp [St.emit, hn]
    · refine ⟨by simp [St.emit, St.db, hq], by simp [St.emit, St.db], ?_, [.done m.iid .evicted], by simp [St.emit, St.db], by simp⟩
      simp [St.emit, St.db, hn]

theorem frame_foldDrop (l : List Nat) (s : St) : Frame s (l.foldl (fun s _ => s.dropFront) s) := by
  induction l generalizing s with
  | nil => exact .refl s
  | cons a l ih => exact (frame_dropFront s).trans (ih _)

theorem frame_dropNormalLoop (n : Nat) (s : St) : Frame s (St.dropNormalLoop n s) := by
  induction n generalizing s with
  | zero => exact .refl s
  | succ n ih =>
    unfold St.dropNormalLoop
    split
    · exact (frame_foldDrop _ s).trans (ih _)
    · exact .refl s

theorem frame_evictTx (ds : List Msg) (s : St) : Frame s (s.evictTx ds) := by
  induction ds generalizing s with
  | nil => exact .refl s
  | cons d ds ih =>
    unfold St.evictTx
    refine Frame.trans ?_ (ih _)
    exact ⟨by simp [St.emit, St.db], .refl _, .refl _, [.done d.iid .evicted], rfl, by simp⟩

theorem frame_dropUpdateLoop (n : Nat) (s : St) : Frame s (St.dropUpdateLoop n s) := by
  induction n generalizing s with
  | zero => exact .refl s
  | succ n ih =>
    unfold St.dropUpdateLoop
    split
    · simp only
      split
      · exact .refl s
      · refine Frame.trans ?_ (ih _)
        refine Frame.trans ?_ (frame_evictTx _ _)
        exact ⟨by simp, (dropPass_sub true s.txq).2.1, .refl _, [], by simp, by simp⟩
    · exact .refl s

theorem frame_checkSizes (s : St) : Frame s s.checkSizes := by
  unfold St.checkSizes
  split
  · exact .refl s
  · exact (frame_dropNormalLoop _ s).trans (frame_dropUpdateLoop _ _)

/-- `s'` is `s` with at most one fresh message added to a queue and the size check applied. -/
structure PushFrame (s s' : St) : Prop where
  eq : s' = { s with
    txq := s'.txq, nq := s'.nq, dbN := s'.dbN, dbT := s'.dbT, writes := s'.writes, trace := s'.trace,
    nextId := s.nextId + 1, newMsg := s'.newMsg, promiseSet := s'.promiseSet, fault := s'.fault }
  new : s'.newMsg = false → s.newMsg = false
  fault : s.fault = none → (∀ i ∈ s.promiseSet, i < s.nextId) → s'.fault = none
  queues : (s'.txq = s.txq ∧ s'.nq = s.nq) ∨
    (s'.newMsg = true ∧ ∃ m : Msg, m.uid = s.nextId ∧ m.iid = s.nextId ∧ m.attempts = 0 ∧ m.ts = s.now ∧ m.txId = none ∧
      ((s'.txq.Sublist (s.txq ++ [m]) ∧ s'.nq.Sublist s.nq) ∨
       (s'.txq.Sublist s.txq ∧ (s'.nq.Sublist (s.nq ++ [m]) ∨ s'.nq.Sublist (m :: s.nq)))))
  trace : ∃ es, s'.trace = s.trace ++ es ∧
    ∀ e ∈ es, (∃ i, e = .done i .evicted) ∨ (∃ i k, e = .push i k) ∨ ∃ i b, e = .fulfil i b

theorem pushFrame_addTx (s s0 : St) (m : Msg) (h0 : s0 = { s with nextId := s.nextId + 1 })
    (hu : m.uid = s.nextId) (hii : m.iid = s.nextId) (ha : m.attempts = 0) (ht : m.ts = s.now) (hx : m.txId = none) :
    PushFrame s (s0.addTx m) := by
  subst h0
  unfold St.addTx
  simp only
  have h := frame_checkSizes { (({ ({ s with nextId := s.nextId + 1 } : St) with txq := s.txq ++ [m] }.emit
    (.push m.iid m.kind)).db (.ins .tx m.row)) with newMsg := true }
  revert h
  generalize St.checkSizes _ = z
  intro h
  obtain ⟨e, t, n, es, q, d⟩ := h
  have en : z.newMsg = true := by rw [e]
  refine ⟨?_, by simp [en], ?_, Or.inr ⟨en, m, hu, hii, ha, ht, hx, Or.inl ⟨t, n⟩⟩, ?_⟩
  · rw [e]; simp [St.emit, St.db]
  · intro hf _; rw [e]; exact hf
  · refine ⟨.push m.iid m.kind :: es, by rw [q]; simp [St.emit, St.db], ?_⟩
    intro x hx; simp at hx; rcases hx with rfl | hx
    · exact Or.inr (Or.inl ⟨_, _, rfl⟩)
    · exact Or.inl (d x hx)

theorem pushFrame_addNormal (s s0 : St) (m : Msg) (h0 : s0 = { s with nextId := s.nextId + 1 })
    (hu : m.uid = s.nextId) (hii : m.iid = s.nextId) (ha : m.attempts = 0) (ht : m.ts = s.now) (hx : m.txId = none) :
    PushFrame s (s0.addNormal m) := by
  subst h0
  unfold St.addNormal
  simp only
  generalize hy : (if (({ ({ s with nextId := s.nextId + 1 } : St) with
      nq := if m.kind = Kind.boot then m :: s.nq else s.nq ++ [m] }).emit (.push m.iid m.kind)).cfg.checkQueue m.kind = true
    then ((({ ({ s with nextId := s.nextId + 1 } : St) with
      nq := if m.kind = Kind.boot then m :: s.nq else s.nq ++ [m] }).emit (.push m.iid m.kind)).db (.ins .normal m.row))
    else (({ ({ s with nextId := s.nextId + 1 } : St) with
      nq := if m.kind = Kind.boot then m :: s.nq else s.nq ++ [m] }).emit (.push m.iid m.kind))) = y
  have fy : y = { s with
      nextId := s.nextId + 1, nq := (if m.kind = Kind.boot then m :: s.nq else s.nq ++ [m]), dbN := y.dbN, dbT := s.dbT,
      writes := y.writes, trace := s.trace ++ [.push m.iid m.kind] } := by
    rw [← hy]; by_cases hc : s.cfg.checkQueue m.kind = true <;> simp [St.emit, St.db, DbWrite.onTable, hc]
  have h := frame_checkSizes { y with newMsg := true }
  revert h
  generalize St.checkSizes _ = z
  intro h
  obtain ⟨e, t, n, es, q, d⟩ := h
  have en : z.newMsg = true := by rw [e]
  refine ⟨?_, by simp [en], ?_, Or.inr ⟨en, m, hu, hii, ha, ht, hx, Or.inr ⟨?_, ?_⟩⟩, ?_⟩
  · rw [e, fy]
  · intro hf _; rw [e, fy]; exact hf
  · rw [fy] at t; exact t
  · rw [fy] at n; simp only at n
    split at n
    · exact Or.inr n
    · exact Or.inl n
  · refine ⟨.push m.iid m.kind :: es, by rw [q, fy]; simp, ?_⟩
    intro x hx; simp at hx; rcases hx with rfl | hx
    · exact Or.inr (Or.inl ⟨_, _, rfl⟩)
    · exact Or.inl (d x hx)

theorem pushFrame_bump (s : St) : PushFrame s { s with nextId := s.nextId + 1 } :=
  ⟨by simp, id, fun h _ => h, Or.inl ⟨rfl, rfl⟩, [], by simp, by simp⟩

theorem pushFrame_fulfil (s : St) (off : Bool) : PushFrame s (({ s with nextId := s.nextId + 1 } : St).fulfil s.nextId off) := by
  unfold St.fulfil
  split
  · rename_i h
    refine ⟨by simp, id, ?_, Or.inl ⟨rfl, rfl⟩, [], by simp, by simp⟩
    intro _ hlt
    have := hlt _ h; omega
  · exact ⟨by simp [St.emit], id, fun h _ => h, Or.inl ⟨rfl, rfl⟩, [.fulfil s.nextId off], rfl,
      fun e he => Or.inr (Or.inr ⟨_, _, List.mem_singleton.1 he⟩)⟩

theorem pushFrame_pushCall (s : St) (k : Kind) (stall trig : Bool) : PushFrame s (s.pushCall k stall trig) := by
  unfold St.pushCall St.fresh
  simp only
  split
  · exact pushFrame_bump s
  · split
    · exact pushFrame_addTx _ _ _ rfl rfl rfl rfl rfl rfl
    · split
      · exact pushFrame_addNormal _ _ _ rfl rfl rfl rfl rfl rfl
      · exact pushFrame_bump s

theorem pushFrame_pushCallAsync (s : St) (k : Kind) (trig : Bool) : PushFrame s (s.pushCallAsync k trig) := by
  unfold St.pushCallAsync St.fresh
  simp only
  split
  · exact pushFrame_fulfil s true
  · split
    · exact pushFrame_addTx _ _ _ rfl rfl rfl rfl rfl rfl
    · split
      · exact pushFrame_addNormal _ _ _ rfl rfl rfl rfl rfl rfl
      · exact pushFrame_fulfil s true

/-- The pushing operations. -/
def BaseOp.isPush : BaseOp → Bool
  | .push _ _ | .pushAsync _ | .dispatch _ _ | .dispatchAsync _ _ => true
  | _ => false

theorem push_frame (s : St) (b : BaseOp) (h : b.isPush = true) : baseStep s b = s ∨ PushFrame s (baseStep s b) := by
  cases b <;> simp only [BaseOp.isPush, Bool.false_eq_true] at h
  · exact Or.inr (pushFrame_pushCall _ _ _ _)
  · exact Or.inr (pushFrame_pushCallAsync _ _ _)
  · simp only [baseStep, St.dispatch]
    split
    · exact Or.inr (pushFrame_pushCall _ _ _ _)
    · exact Or.inr (pushFrame_pushCall _ _ _ _)
    · exact Or.inl rfl
  · simp only [baseStep, St.dispatchAsync]
    split
    · exact Or.inr (pushFrame_pushCallAsync _ _ _)
    · exact Or.inl rfl

/-- Induction principle for an invariant of the whole state. -/
theorem run_state {J : St → Prop} {ok : St → Op → Prop}
    (hw : ∀ s, J s → J { s with writes := [] })
    (hb : ∀ s b, SInv s → s.fault = none → b.isRestart = false → ok s (.run b) → s.writes = [] → J s → J (baseStep s b))
    (hokw : ∀ s op, ok s op → ok { s with writes := [] } op)
    (hr : ∀ (s p s' : St) cfg ign op, ok s op → SInv s → J s → p.now = s.now → Gap s p op →
      RestartFacts p s' cfg ign → (∀ b, op = .run b → b = .restart cfg ign) → J s')
    (s : St) (hs : SInv s) (h0 : J s) (ops : List Op) (hok : Along ok s ops) : J (run s ops) := by
  have : SInv (run s ops) ∧ J (run s ops) := by
    refine run_along (P := fun s => SInv s ∧ J s) (ok := ok) ?_ ops s ⟨hs, h0⟩ hok
    intro s op ⟨hS, hJ⟩ ho
    refine ⟨step_sinv s op hS, ?_⟩
    cases stepView s op hS with
    | micros b hob hf hr' hmm he =>
      rw [he]; subst hob
      exact hb _ b ⟨hS.inv, hS.psLt⟩ hf hr' (hokw _ _ ho) rfl (hw s hJ)
    | stuck hf h2 => rw [h2]; exact hJ
    | restart p c i hn hid ht hdb h2 hop => rw [h2]; exact hr s p _ c i op ho hS hJ hn ht (restart_facts p c i hdb) hop
  exact this.2

end Verif.MQ
