import Verif.MessageQueue.StateLemmas

/-! # Case views of the worker and of failure handling -/

namespace Verif.MQ

set_option linter.unusedSimpArgs false

theorem clearNewMsg_eq (s : St) :
    s.clearNewMsg = { s with newMsg := if s.txq = [] ∧ s.nq = [] then false else s.newMsg } := by
  unfold St.clearNewMsg; split <;> rfl

/-- The worker either leaves the state alone, goes to sleep, or attempts a transmission. -/
theorem worker_cases {P : St → Prop} (s : St) (ok : Bool) (h1 : P s)
    (h2 : s.selTx = none → s.selNormal = none → P { s with newMsg := false })
    (h3 : ∀ q m, s.inFlight = none → s.paused = false → s.awake = true → (s.hold = none ∨ s.hold = some m.uid) →
      ((q = .tx ∧ s.selTx = some m) ∨ (q = .normal ∧ s.selTx = none ∧ s.selNormal = some m)) → P (s.attempt q m ok)) :
    P (s.worker ok) := by
  unfold St.worker
  split
  · exact h1
  · rename_i haw
    split
    · exact h1
    · split
      · exact h1
      · rename_i hp
        split
        · exact h1
        · rename_i hi
          have hi' : s.inFlight = none := by simpa using hi
          have hp' : s.paused = false := by simpa using hp
          have ha' : s.awake = true := by simpa using haw
          simp only
          cases ht : s.selTx with
          | some m =>
            simp only
            cases hh : s.hold with
            | none => exact h3 _ _ hi' hp' ha' (Or.inl hh) (Or.inl ⟨rfl, ht⟩)
            | some h =>
              simp only
              split
              · exact h1
              · rename_i he
                exact h3 _ _ hi' hp' ha' (Or.inr (by rw [hh]; simpa using he)) (Or.inl ⟨rfl, ht⟩)
          | none =>
            simp only
            cases hn : s.selNormal with
            | none => exact h2 ht hn
            | some m =>
              simp only
              cases hh : s.hold with
              | none => exact h3 _ _ hi' hp' ha' (Or.inl hh) (Or.inr ⟨rfl, ht, hn⟩)
              | some h =>
                simp only
                split
                · exact h1
                · rename_i he
                  exact h3 _ _ hi' hp' ha' (Or.inr (by rw [hh]; simpa using he)) (Or.inr ⟨rfl, ht, hn⟩)

theorem mem_updFirst {p : α → Bool} {f : α → α} {l : List α} {x : α} (h : x ∈ updFirst p f l) :
    x ∈ l ∨ ∃ y ∈ l, p y = true ∧ x = f y := by
  induction l with
  | nil => simp [updFirst] at h
  | cons a l ih =>
    unfold updFirst at h
    split at h
    · simp only [List.mem_cons] at h
      rcases h with rfl | h
      · exact Or.inr ⟨a, by simp, by assumption, rfl⟩
      · exact Or.inl (by simp [h])
    · simp only [List.mem_cons] at h
      rcases h with rfl | h
      · exact Or.inl (by simp)
      · rcases ih h with h | ⟨y, hy, h⟩
        · exact Or.inl (by simp [h])
        · exact Or.inr ⟨y, by simp [hy], h⟩

/-- A transmission that succeeds. -/
structure SentView (s s' : St) (q : Q) (m : Msg) : Prop where
  eq : s' = { s with
    midTx := s.midTx.filter (fun e => e.1 != m.uid), txq := s'.txq, nq := s'.nq, inFlight := some (s.prepare m),
    timerArmed := true, newMsg := s'.newMsg, trace := s.trace ++ [.send (s.prepare m)] }
  txq : s'.txq = if q = .tx then s.txq.tail else s.txq
  nq : s'.nq.Sublist s.nq
  new : s'.newMsg = if s'.txq = [] ∧ s'.nq = [] then false else s.newMsg

theorem attempt_sent (s : St) (q : Q) (m : Msg) : SentView s (s.attempt q m true) q m := by
  unfold St.attempt
  simp only [clearNewMsg_eq, if_true]
  cases q
  · exact ⟨by simp [St.emit], by simp [St.emit], by simp [St.emit]; exact List.eraseP_sublist, by simp [St.emit]⟩
  · exact ⟨by simp [St.emit], by simp [St.emit], by simp [St.emit], by simp [St.emit]⟩

/-- A transmission that fails. -/
structure FailView (s s' : St) (q : Q) (m : Msg) : Prop where
  eq : s' = { s with
    midTx := s.midTx.filter (fun e => e.1 != m.uid), txq := s'.txq, nq := s'.nq, inFlight := none, paused := true,
    timerArmed := false, newMsg := s'.newMsg, trace := s'.trace, promiseSet := s'.promiseSet, fault := s'.fault }
  txq : s'.txq = s.txq ∨ ∃ m2 : Msg, m2.uid = m.uid ∧ m2.iid = m.iid ∧ m2.attempts = m.attempts + 1 ∧ m2.txId = (s.prepare m).txId ∧
    s'.txq = m2 :: s.txq.tail
  txqN : q = .normal → s'.txq = s.txq
  nq : ∀ x ∈ s'.nq, x ∈ s.nq ∨ (x.uid = m.uid ∧ x.iid = m.iid ∧ x.attempts = m.attempts + 1 ∧ x.txId = (s.prepare m).txId)
  new : s'.newMsg = if s'.txq = [] ∧ s'.nq = [] then false else s.newMsg
  fault : s.fault = none → s'.fault ≠ some .nullInFlight
  trace : ∃ es, s'.trace = s.trace ++ es ∧ ∀ e ∈ es, (∃ i b, e = .fulfil i b) ∨ ∃ i w, e = .done i w

theorem FailView.of {s : St} {q : Q} {m : Msg} (z : St)
    (eq : z = { s with
      midTx := s.midTx.filter (fun e => e.1 != m.uid), txq := z.txq, nq := z.nq, paused := true,
      trace := z.trace, promiseSet := z.promiseSet, fault := z.fault })
    (txq : z.txq = s.txq ∨ ∃ m2 : Msg, m2.uid = m.uid ∧ m2.iid = m.iid ∧ m2.attempts = m.attempts + 1 ∧ m2.txId = (s.prepare m).txId ∧
      z.txq = m2 :: s.txq.tail)
    (txqN : q = .normal → z.txq = s.txq)
    (nq : ∀ x ∈ z.nq, x ∈ s.nq ∨ (x.uid = m.uid ∧ x.iid = m.iid ∧ x.attempts = m.attempts + 1 ∧ x.txId = (s.prepare m).txId))
    (fault : s.fault = none → z.fault ≠ some .nullInFlight)
    (trace : ∃ es, z.trace = s.trace ++ es ∧ ∀ e ∈ es, (∃ i b, e = .fulfil i b) ∨ ∃ i w, e = .done i w) :
    FailView s z.resetInFlight.clearNewMsg q m := by
  rw [clearNewMsg_eq]
  unfold St.resetInFlight
  refine ⟨?_, txq, txqN, nq, ?_, fault, trace⟩
  · rw [eq]
  · rw [eq]

theorem nq_upd {s : St} {p : Msg → Bool} {m m2 : Msg} (h1 : m2.uid = m.uid) (h0 : m2.iid = m.iid) (h2 : m2.attempts = m.attempts + 1)
    (h3 : m2.txId = (s.prepare m).txId) : ∀ x ∈ updFirst p (fun _ => m2) s.nq,
      x ∈ s.nq ∨ (x.uid = m.uid ∧ x.iid = m.iid ∧ x.attempts = m.attempts + 1 ∧ x.txId = (s.prepare m).txId) := by
  intro x hx
  rcases mem_updFirst hx with h | ⟨y, _, _, rfl⟩
  · exact Or.inl h
  · exact Or.inr ⟨h1, h0, h2, h3⟩

theorem attempt_failed (s : St) (q : Q) (m : Msg) : FailView s (s.attempt q m false) q m := by
  unfold St.attempt
  simp only [Bool.false_eq_true, if_false]
  split
  · have h1 : ∀ b : Bool, (if b = true then { s.prepare m with offline := true } else s.prepare m).uid = m.uid := by
      intro b; cases b <;> rfl
    have h0 : ∀ b : Bool, (if b = true then { s.prepare m with offline := true } else s.prepare m).iid = m.iid := by
      intro b; cases b <;> rfl
    have h2 : ∀ b : Bool, (if b = true then { s.prepare m with offline := true } else s.prepare m).attempts = m.attempts + 1 := by
      intro b; cases b <;> rfl
    have h3 : ∀ b : Bool, (if b = true then { s.prepare m with offline := true } else s.prepare m).txId = (s.prepare m).txId := by
      intro b; cases b <;> rfl
    cases q
    · exact .of _ (by simp) (Or.inl rfl) (fun _ => rfl) (nq_upd (h1 _) (h0 _) (h2 _) (h3 _)) (fun h => by simp [h]) ⟨[], by simp, by simp⟩
    · exact .of _ (by simp) (Or.inr ⟨_, h1 _, h0 _, h2 _, h3 _, rfl⟩) (fun h => by cases h) (fun x hx => Or.inl hx) (fun h => by simp [h])
        ⟨[], by simp, by simp⟩
  · split
    · cases q
      · exact .of _ (by simp) (Or.inl rfl) (fun _ => rfl) (nq_upd rfl rfl rfl rfl) (fun h => by simp [h]) ⟨[], by simp, by simp⟩
      · exact .of _ (by simp) (Or.inr ⟨s.prepare m, rfl, rfl, rfl, rfl, rfl⟩) (fun h => by cases h) (fun x hx => Or.inl hx) (fun h => by simp [h])
          ⟨[], by simp, by simp⟩
    · cases q
      · simp only
        unfold St.fulfil
        simp only
        split
        · simp only [Option.isSome_some, if_true]
          exact .of _ (by simp) (Or.inl rfl) (fun _ => rfl) (nq_upd rfl rfl rfl rfl) (fun h => by simp) ⟨[], by simp, by simp⟩
        · split
          · exact .of _ (by simp [St.emit]) (Or.inl rfl) (fun _ => rfl) (nq_upd rfl rfl rfl rfl) (fun h => by simp [St.emit, h])
              ⟨[_], rfl, fun e he => Or.inl ⟨_, _, List.mem_singleton.1 he⟩⟩
          · split
            · exact .of _ (by simp [St.emit]) (Or.inl rfl) (fun _ => rfl) (nq_upd rfl rfl rfl rfl) (fun h => by simp [St.emit, h])
                ⟨[_], rfl, fun e he => Or.inl ⟨_, _, List.mem_singleton.1 he⟩⟩
            · rename_i f rest hfr
              refine .of _ (by simp [St.emit]) (Or.inl rfl) (fun _ => rfl) ?_ (fun h => by simp [St.emit, h])
                ⟨[.fulfil m.iid true, .done f.iid .popped], by simp [St.emit, St.prepare], ?_⟩
              · intro x hx
                exact nq_upd (s := s) (m := m) (m2 := s.prepare m) rfl rfl rfl rfl x
                  (by simp only [St.emit] at hfr hx; rw [hfr]; exact List.mem_cons_of_mem _ hx)
              · intro e he; simp at he; rcases he with rfl | rfl
                · exact Or.inl ⟨_, _, rfl⟩
                · exact Or.inr ⟨_, _, rfl⟩
      · exact .of _ (by simp) (Or.inr ⟨s.prepare m, rfl, rfl, rfl, rfl, rfl⟩) (fun h => by cases h) (fun x hx => Or.inl hx) (fun h => by simp [h])
          ⟨[], by simp, by simp⟩

/-- Handling of a timeout or CALLERROR for the outstanding call `m`. -/
structure FailedView (s s' : St) (m : Msg) : Prop where
  eq : s' = { s with
    txq := s'.txq, nq := s'.nq, inFlight := s'.inFlight, timerArmed := s'.timerArmed, nextId := s'.nextId,
    notifyAt := s'.notifyAt, trace := s'.trace, promiseSet := s'.promiseSet, fault := s'.fault, dbN := s'.dbN,
    dbT := s'.dbT, writes := s'.writes }
  fl : (s'.inFlight = none ∧ s'.timerArmed = false) ∨ (s'.inFlight = s.inFlight ∧ s'.timerArmed = s.timerArmed)
  queues : (s'.txq = s.txq ∧ s'.nq = s.nq) ∨ (∃ m' : Msg, m'.uid = s.nextId ∧ m'.iid = m.iid ∧ m'.attempts = m.attempts ∧ m'.txId = m.txId ∧
    s'.nextId = s.nextId + 1 ∧ ((s'.txq = m' :: s.txq ∧ s'.nq = s.nq) ∨ (s'.txq = s.txq ∧ s'.nq = m' :: s.nq)))
  next : s.nextId ≤ s'.nextId
  fault : s.fault = none → s'.fault ≠ some .nullInFlight
  trace : ∃ es, s'.trace = s.trace ++ es ∧ ∀ e ∈ es, (∃ u i, e = .failed u i) ∨ (∃ i b, e = .fulfil i b) ∨ ∃ i w, e = .done i w

theorem FailedView.finish (s : St) (m : Msg) (off : Bool) (f : St → St)
    (hf : ∀ z : St, f z = { z with dbN := (f z).dbN, dbT := (f z).dbT, writes := (f z).writes }) :
    FailedView s (if ((s.emit (.failed m.uid m.iid)).fulfil m.iid off).fault.isSome = true then
        (s.emit (.failed m.uid m.iid)).fulfil m.iid off
      else ((f ((s.emit (.failed m.uid m.iid)).fulfil m.iid off)).emit (.done m.iid .gaveUp)).resetInFlight) m := by
  generalize hz : (s.emit (.failed m.uid m.iid)).fulfil m.iid off = z
  unfold St.fulfil at hz
  have ez : z = { s with trace := z.trace, promiseSet := z.promiseSet, fault := z.fault } := by
    rw [← hz]; split <;> simp [St.emit]
  have et : ∃ es, z.trace = s.trace ++ es ∧ ∀ e ∈ es, (∃ u i, e = .failed u i) ∨ (∃ i b, e = .fulfil i b) ∨ ∃ i w, e = .done i w := by
    rw [← hz]; split
    · exact ⟨[_], rfl, fun e he => Or.inl ⟨_, _, List.mem_singleton.1 he⟩⟩
    · exact ⟨[.failed m.uid m.iid, .fulfil m.iid off], by simp [St.emit], fun e he => by
        simp only [List.mem_cons, List.not_mem_nil, or_false] at he; rcases he with rfl | rfl
        · exact Or.inl ⟨_, _, rfl⟩
        · exact Or.inr (Or.inl ⟨_, _, rfl⟩)⟩
  have ef : s.fault = none → z.fault ≠ some .nullInFlight := by
    intro h; rw [← hz]; split
    · simp
    · simp [St.emit, h]
  clear hz
  obtain ⟨es, et, ed⟩ := et
  split
  · refine ⟨by rw [ez], Or.inr ⟨by rw [ez], by rw [ez]⟩, Or.inl ⟨by rw [ez], by rw [ez]⟩, by rw [ez]; exact Nat.le_refl _, ef, es, et, ed⟩
  · have e1 := hf z
    generalize f z = y at e1
    refine ⟨?_, Or.inl ⟨rfl, rfl⟩, Or.inl ⟨?_, ?_⟩, ?_, ?_, es ++ [.done m.iid .gaveUp], ?_, ?_⟩
    · rw [e1, ez]; simp [St.resetInFlight, St.emit]
    · rw [e1, ez]; simp [St.resetInFlight, St.emit]
    · rw [e1, ez]; simp [St.resetInFlight, St.emit]
    · rw [e1, ez]; simp [St.resetInFlight, St.emit]
    · intro h; rw [e1]; exact ef h
    · rw [e1]; simp [St.resetInFlight, St.emit, et]
    · intro e he
      simp only [List.mem_append, List.mem_singleton] at he
      rcases he with he | rfl
      · exact ed e he
      · exact Or.inr (Or.inr ⟨_, _, rfl⟩)

theorem handleFail_view (s : St) (off : Bool) (m : Msg) (hi : s.inFlight = some m) : FailedView s (s.handleFail off) m := by
  unfold St.handleFail
  simp only [hi]
  split
  · split
    · cases hk : m.kind.isTx
      · simp only [Bool.false_eq_true, if_false]
        refine ⟨by simp [St.resetInFlight, St.emit], Or.inl ⟨rfl, rfl⟩,
          Or.inr ⟨{ m with uid := s.nextId, ts := _ }, rfl, rfl, rfl, rfl, rfl, Or.inr ⟨rfl, rfl⟩⟩,
          by simp [St.resetInFlight, St.emit], fun h => by simp [St.resetInFlight, St.emit, h], [_], rfl, ?_⟩
        intro e he; simp at he; exact Or.inl ⟨_, _, he⟩
      · simp only [if_true]
        refine ⟨by simp [St.resetInFlight, St.emit], Or.inl ⟨rfl, rfl⟩,
          Or.inr ⟨{ m with uid := s.nextId, ts := _ }, rfl, rfl, rfl, rfl, rfl, Or.inl ⟨rfl, rfl⟩⟩,
          by simp [St.resetInFlight, St.emit], fun h => by simp [St.resetInFlight, St.emit, h], [_], rfl, ?_⟩
        intro e he; simp at he; exact Or.inl ⟨_, _, he⟩
    · exact FailedView.finish s m off (fun z => z.db (.del (if m.kind.isTx = true then .tx else .normal) m.iid .gaveUp))
        (fun z => rfl)
  · split
    · refine ⟨by simp [St.resetInFlight, St.emit], Or.inl ⟨rfl, rfl⟩,
        Or.inr ⟨{ m with uid := s.nextId, ts := m.ts + s.cfg.bootInterval }, rfl, rfl, rfl, rfl, rfl, Or.inr ⟨rfl, rfl⟩⟩,
        by simp [St.resetInFlight, St.emit], fun h => by simp [St.resetInFlight, St.emit, h], [_], rfl, ?_⟩
      intro e he; simp at he; exact Or.inl ⟨_, _, he⟩
    · exact FailedView.finish s m off (fun z => z) (fun z => rfl)

/-- Receipt of a CALLRESULT. -/
structure ResultView (s s' : St) (u : Nat) : Prop where
  eq : s' = { s with
    hold := none, inFlight := s'.inFlight, timerArmed := s'.timerArmed, trace := s'.trace, promiseSet := s'.promiseSet,
    fault := s'.fault, dbN := s'.dbN, dbT := s'.dbT, writes := s'.writes }
  fl : (s'.inFlight = s.inFlight ∧ s'.timerArmed = s.timerArmed ∧
      ∃ es, s'.trace = s.trace ++ es ∧ ∀ e ∈ es, (∃ v, e = .recv v) ∨ ∃ i b, e = .fulfil i b) ∨
    (s'.inFlight = none ∧ s'.timerArmed = false ∧ ∃ m, s.inFlight = some m ∧ m.uid = u ∧
      s'.trace = s.trace ++ [.recv u, .fulfil m.iid false, .answer m.uid m.iid, .done m.iid .answered])
  fault : s.fault = none → s'.fault ≠ some .nullInFlight

theorem recvResult_view (s : St) (u : Nat) : ResultView s (s.recvResult u) u := by
  unfold St.recvResult
  simp only
  cases hi : s.inFlight with
  | none =>
    simp only [St.emit, hi]
    exact ⟨by simp [hi], Or.inl ⟨hi.symm ▸ rfl, rfl, [_], rfl, fun e he => Or.inl ⟨_, List.mem_singleton.1 he⟩⟩, fun h => by simp [h]⟩
  | some m =>
    simp only [St.emit, hi]
    split
    · exact ⟨by simp [hi], Or.inl ⟨hi.symm ▸ rfl, rfl, [_], rfl, fun e he => Or.inl ⟨_, List.mem_singleton.1 he⟩⟩, fun h => by simp [h]⟩
    · rename_i hu
      have hu' : m.uid = u := by simpa using hu
      unfold St.fulfil
      split
      · simp only [Option.isSome_some, if_true]
        exact ⟨by simp [hi], Or.inl ⟨hi.symm ▸ rfl, rfl, [_], rfl, fun e he => Or.inl ⟨_, List.mem_singleton.1 he⟩⟩, fun h => by simp⟩
      · split
        · refine ⟨by simp [St.emit, hi], Or.inl ⟨hi.symm ▸ rfl, rfl, [.recv u, .fulfil m.iid false], by simp [St.emit], ?_⟩, fun h => by simp [St.emit, h]⟩
          intro e he; simp at he; rcases he with rfl | rfl
          · exact Or.inl ⟨_, rfl⟩
          · exact Or.inr ⟨_, _, rfl⟩
        · refine ⟨?_, Or.inr ⟨rfl, rfl, m, hi, hu', ?_⟩, ?_⟩
          · split <;> simp [St.resetInFlight, St.emit, St.db]
          · split <;> simp [St.resetInFlight, St.emit, St.db]
          · intro h; split <;> simp [St.resetInFlight, St.emit, St.db, h]

end Verif.MQ
