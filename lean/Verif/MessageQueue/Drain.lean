import Verif.MessageQueue.Theorems2

/-!
# The backlog is delivered

With a connection, an accepted station and a CSMS that answers, the queue empties itself.
-/

namespace Verif.MQ

/-- One round with a connection that works and a CSMS that answers: the worker transmits a message, and the answer to
it arrives. -/
def serve (s : St) : St :=
  let s1 := step s (.run (.worker true))
  match s1.inFlight with
  | some m => step s1 (.run (.recvResult m.uid))
  | none => s1

/-- The operations of `n` rounds. -/
def serveOps : Nat → St → List Op
  | 0, _ => []
  | n + 1, s =>
    (match (step s (.run (.worker true))).inFlight with
     | some m => [.run (.worker true), .run (.recvResult m.uid)]
     | none => [.run (.worker true)]) ++ serveOps n (serve s)

/-- `n` rounds. -/
def serves : Nat → St → St
  | 0, s => s
  | n + 1, s => serves n (serve s)

theorem serves_run (n : Nat) (s : St) : serves n s = run s (serveOps n s) := by
  induction n generalizing s with
  | zero => rfl
  | succ n ih =>
    rw [serves, ih, serveOps]
    unfold run
    rw [List.foldl_append]
    congr 1
    unfold serve
    dsimp only
    cases (step s (.run (.worker true))).inFlight <;> rfl

/-- Only transmissions that succeed and answers. -/
theorem serveOps_mem (n : Nat) (s : St) : ∀ op ∈ serveOps n s, op = .run (.worker true) ∨ ∃ u, op = .run (.recvResult u) := by
  induction n generalizing s with
  | zero => intro op h; cases h
  | succ n ih =>
    intro op h
    rw [serveOps] at h
    rcases List.mem_append.1 h with h | h
    · cases hi : (step s (.run (.worker true))).inFlight with
      | none => rw [hi] at h; simp only [List.mem_singleton] at h; exact Or.inl h
      | some m =>
        rw [hi] at h
        simp only [List.mem_cons, List.not_mem_nil, or_false] at h
        rcases h with h | h
        · exact Or.inl h
        · exact Or.inr ⟨_, h⟩
    · exact ih _ op h

/-- What is needed for the queue to work off its messages. -/
structure Ready (s : St) : Prop where
  fault : s.fault = none
  running : s.running = true
  paused : s.paused = false
  accepted : s.accepted = true
  hold : s.hold = none
  inFlight : s.inFlight = none
  wake : s.txq ++ s.nq ≠ [] → s.newMsg = true
  due : ∀ m ∈ s.txq ++ s.nq, m.ts ≤ s.now
  promise : ∀ m ∈ s.txq ++ s.nq, m.iid ∉ s.promiseSet
  nodup : ((s.txq ++ s.nq).map Msg.iid).Nodup

/-- Messages are finished by an answer only, and no failure is handled. -/
def Good (es : List Ev) : Prop := ∀ e ∈ es, (∀ i w, e = .done i w → w = .answered) ∧ ∀ u i, e ≠ .failed u i

theorem Good.append {a b : List Ev} (ha : Good a) (hb : Good b) : Good (a ++ b) := by
  intro e he
  rcases List.mem_append.1 he with he | he
  · exact ha e he
  · exact hb e he

theorem Ready.allowed {s : St} (h : Ready s) {m : Msg} (hm : m ∈ s.txq ++ s.nq) : m.allowed s.now s.accepted = true := by
  unfold Msg.allowed
  rw [h.accepted]
  have := h.due m hm
  simp; omega

/-- The state after the transmission of `m` and its answer, up to the rest of the queues. -/
theorem answer_ready {s : St} (h : Ready s) (m m1 : Msg) (tq nq : List Msg) (mid : List (Nat × Int)) (nm : Bool)
    (h1 : m1.uid = m.uid) (h2 : m1.iid = m.iid) (hsub : (tq ++ nq).Sublist (s.txq ++ s.nq)) (hm : m.iid ∉ (tq ++ nq).map Msg.iid)
    (hmem : m ∈ s.txq ++ s.nq) (hnm : tq ++ nq ≠ [] → nm = true) (tr : List Ev) :
    let z : St := { s with
      txq := tq
      nq := nq
      inFlight := some m1
      timerArmed := true
      midTx := mid
      newMsg := nm
      writes := []
      trace := tr }
    let r := step z (.run (.recvResult m.uid))
    Ready r ∧ r.txq = tq ∧ r.nq = nq ∧ (∃ es, r.trace = tr ++ es ∧ .answer m.uid m.iid ∈ es ∧ Good es) := by
  have hp := h.promise m hmem
  have key : ∀ (z : St), z.fault = none → z.inFlight = some m1 → m.iid ∉ z.promiseSet →
      ∃ z' : St, step z (.run (.recvResult m.uid)) = z' ∧ z'.fault = none ∧ z'.running = z.running ∧ z'.paused = z.paused ∧
        z'.accepted = z.accepted ∧ z'.hold = none ∧ z'.inFlight = none ∧ z'.txq = z.txq ∧ z'.nq = z.nq ∧ z'.newMsg = z.newMsg ∧
        z'.now = z.now ∧ z'.promiseSet = m.iid :: z.promiseSet ∧ ∃ es, z'.trace = z.trace ++ es ∧ .answer m.uid m.iid ∈ es ∧ Good es := by
    intro z hz hi hps
    refine ⟨_, rfl, ?_⟩
    have e : step z (.run (.recvResult m.uid)) = ({ z with writes := [] } : St).recvResult m.uid := by
      simp [step, hz, baseStep]
    rw [e]
    unfold St.recvResult
    simp only [St.emit, hi, h1, ne_eq, not_true_eq_false, if_false, St.fulfil, h2, hps, hz, Option.isSome_none,
      Bool.false_eq_true]
    split <;> simp [St.resetInFlight, St.db]
    all_goals
      intro e he
      simp only [List.mem_cons, List.not_mem_nil, or_false] at he
      rcases he with rfl | rfl | rfl | rfl <;> simp
  intro z r
  obtain ⟨z', e, k1, k2, k3, k4, k5, k6, k7, k8, k9, k10, k11, es, k12, k13, k14⟩ := key z h.fault rfl hp
  have er : r = z' := e
  rw [er]
  refine ⟨⟨k1, k2.trans h.running, k3.trans h.paused, k4.trans h.accepted, k5, k6, ?_, ?_, ?_, ?_⟩, k7, k8, es, k12, k13, k14⟩
  · rw [k7, k8, k9]; exact hnm
  · rw [k7, k8, k10]; intro x hx; exact h.due x (hsub.subset hx)
  · rw [k7, k8, k11]
    intro x hx hc
    rcases List.mem_cons.1 hc with hc | hc
    · exact hm (by rw [← hc]; exact List.mem_map.2 ⟨x, hx, rfl⟩)
    · exact h.promise x (hsub.subset hx) hc
  · rw [k7, k8]; exact h.nodup.sublist (hsub.map _)

theorem worker_attempt (z : St) (h1 : z.running = true) (h2 : z.paused = false) (h3 : z.newMsg = true)
    (h4 : z.inFlight = none) (h5 : z.hold = none) (h6 : ¬ (z.txq = [] ∧ z.nq = [])) :
    (∀ m, z.selTx = some m → z.worker true = z.attempt .tx m true) ∧
    (∀ m, z.selTx = none → z.selNormal = some m → z.worker true = z.attempt .normal m true) := by
  constructor
  · intro m hm
    unfold St.worker St.awake
    rw [if_neg (by simp [h1, h2, h3, h4]), if_neg h6, if_neg (by simp [h2]), if_neg (by simp [h4])]
    simp only [hm, h5]
  · intro m hm hn
    unfold St.worker St.awake
    rw [if_neg (by simp [h1, h2, h3, h4]), if_neg h6, if_neg (by simp [h2]), if_neg (by simp [h4])]
    simp only [hm, hn, h5]

/-- One round delivers one message. -/
theorem serve_ready {s : St} (h : Ready s) (hne : s.txq ++ s.nq ≠ []) :
    Ready (serve s) ∧ ∃ m, m ∈ s.txq ++ s.nq ∧ (∀ x ∈ s.txq ++ s.nq, x = m ∨ x ∈ (serve s).txq ++ (serve s).nq) ∧
      ((serve s).txq ++ (serve s).nq).length + 1 = (s.txq ++ s.nq).length ∧
      ∃ es, (serve s).trace = s.trace ++ es ∧ .answer m.uid m.iid ∈ es ∧ Good es := by
  have hw := h.wake hne
  have e0 : step s (.run (.worker true)) = ({ s with writes := [] } : St).worker true := by
    simp [step, h.fault, baseStep]
  have hsel : s.selNormal = s.nq.head? := by
    unfold St.selNormal
    cases hn : s.nq with
    | nil => rfl
    | cons n l =>
      have := h.allowed (m := n) (by simp [hn])
      simp [this]
  have hnd := h.nodup
  rw [List.map_append] at hnd
  have fin : ∀ (q : Q) (m m1 : Msg) (tq nq : List Msg) (mid : List (Nat × Int)) (nm : Bool), m1.uid = m.uid → m1.iid = m.iid →
      (tq ++ nq).Sublist (s.txq ++ s.nq) → m.iid ∉ (tq ++ nq).map Msg.iid → m ∈ s.txq ++ s.nq → (tq ++ nq ≠ [] → nm = true) →
      (∀ x ∈ s.txq ++ s.nq, x = m ∨ x ∈ tq ++ nq) → (tq ++ nq).length + 1 = (s.txq ++ s.nq).length →
      step s (.run (.worker true)) = ({ s with
        txq := tq
        nq := nq
        inFlight := some m1
        timerArmed := true
        midTx := mid
        newMsg := nm
        writes := []
        trace := s.trace ++ [.send m1] } : St) →
      Ready (serve s) ∧ ∃ m, m ∈ s.txq ++ s.nq ∧ (∀ x ∈ s.txq ++ s.nq, x = m ∨ x ∈ (serve s).txq ++ (serve s).nq) ∧
        ((serve s).txq ++ (serve s).nq).length + 1 = (s.txq ++ s.nq).length ∧
        ∃ es, (serve s).trace = s.trace ++ es ∧ .answer m.uid m.iid ∈ es ∧ Good es := by
    intro q m m1 tq nq mid nm a1 a2 a3 a4 a5 a6 a7 a8 a9
    have hs := answer_ready h m m1 tq nq mid nm a1 a2 a3 a4 a5 a6 (s.trace ++ [.send m1])
    have es : serve s = step (step s (.run (.worker true))) (.run (.recvResult m.uid)) := by
      have hi : (step s (.run (.worker true))).inFlight = some m1 := by rw [a9]
      unfold serve
      simp only [hi, a1]
    rw [es, a9]
    obtain ⟨b1, b2, b3, es', b4, b5, b6⟩ := hs
    refine ⟨b1, m, a5, ?_, ?_, [.send m1] ++ es', ?_, List.mem_append_right _ b5, Good.append (by intro e he; simp at he; subst he; exact ⟨(fun i w hw => by cases hw), (fun u i hc => by cases hc)⟩) b6⟩
    · rw [b2, b3]; exact a7
    · rw [b2, b3]; exact a8
    · rw [b4, List.append_assoc]
  have clr : ∀ z : St, ∃ nm, z.clearNewMsg = { z with newMsg := nm } ∧ (z.newMsg = true → z.txq ++ z.nq ≠ [] → nm = true) := by
    intro z
    unfold St.clearNewMsg
    split
    · rename_i hc
      exact ⟨false, rfl, fun _ hx => absurd (by rw [hc.1, hc.2]; rfl) hx⟩
    · exact ⟨z.newMsg, rfl, fun hx _ => hx⟩
  cases ht : s.selTx with
  | some m =>
    have htq : ∃ rest, s.txq = m :: rest := by
      unfold St.selTx at ht
      cases hq : s.txq with
      | nil => rw [hq] at ht; cases ht
      | cons a rest =>
        rw [hq] at ht
        dsimp only at ht
        split at ht
        · cases ht; exact ⟨rest, rfl⟩
        · cases ht
    obtain ⟨rest, htq⟩ := htq
    have e1 : ({ s with writes := [] } : St).worker true = ({ s with writes := [] } : St).attempt .tx m true := by
      exact (worker_attempt { s with writes := [] } h.running h.paused hw h.inFlight h.hold (by simp [htq])).1 m ht
    obtain ⟨nm, c1, c2⟩ := clr (({ ({ s with writes := [] } : St) with
        midTx := s.midTx.filter (fun e => e.1 != m.uid)
        txq := s.txq.tail
        inFlight := some (s.prepare m)
        timerArmed := true } : St).emit (.send (s.prepare m)))
    refine fin .tx m (s.prepare m) rest s.nq (s.midTx.filter (fun e => e.1 != m.uid)) nm rfl rfl ?_ ?_ ?_ ?_ ?_ ?_ ?_
    · rw [htq]; simp
    · rw [htq] at hnd; simp at hnd ⊢; grind
    · rw [htq]; simp
    · intro hx; refine c2 hw ?_; simpa [St.emit, htq] using hx
    · rw [htq]; intro x hx; simpa using hx
    · rw [htq]; simp
    · rw [e0, e1]
      show St.clearNewMsg _ = _
      refine Eq.trans c1 ?_
      simp [St.emit, htq]
  | none =>
    have hnq : ∃ m rest, s.nq = m :: rest := by
      cases hn : s.nq with
      | cons m rest => exact ⟨m, rest, rfl⟩
      | nil =>
        exfalso
        rw [hn] at hsel
        cases hq : s.txq with
        | nil => rw [hq, hn] at hne; exact hne rfl
        | cons a rest =>
          unfold St.selTx at ht
          rw [hq, hsel] at ht
          have := h.allowed (m := a) (by simp [hq])
          simp [this, Msg.before] at ht
    obtain ⟨m, rest, hnq⟩ := hnq
    have e1 : ({ s with writes := [] } : St).worker true = ({ s with writes := [] } : St).attempt .normal m true := by
      exact (worker_attempt { s with writes := [] } h.running h.paused hw h.inFlight h.hold (by simp [hnq])).2 m ht
        (by rw [hnq] at hsel; exact hsel)
    have hal := h.allowed (m := m) (by simp [hnq])
    obtain ⟨nm, c1, c2⟩ := clr (({ ({ s with writes := [] } : St) with
        midTx := s.midTx.filter (fun e => e.1 != m.uid)
        nq := rest
        inFlight := some (s.prepare m)
        timerArmed := true } : St).emit (.send (s.prepare m)))
    refine fin .normal m (s.prepare m) s.txq rest (s.midTx.filter (fun e => e.1 != m.uid)) nm rfl rfl ?_ ?_ ?_ ?_ ?_ ?_ ?_
    · rw [hnq]; exact List.Sublist.append (List.Sublist.refl _) (by simp)
    · rw [hnq] at hnd; simp [List.nodup_append] at hnd ⊢; grind
    · rw [hnq]; simp
    · intro hx; refine c2 hw ?_; simpa [St.emit] using hx
    · rw [hnq]; intro x hx; simp at hx ⊢; grind
    · rw [hnq]; simp; omega
    · rw [e0, e1]
      show St.clearNewMsg _ = _
      refine Eq.trans ?_ (Eq.trans c1 ?_)
      · congr 1
        simp [St.emit, hnq, hal]
        rfl
      · simp [St.emit]

theorem serves_ready (n : Nat) : ∀ {s : St}, Ready s → (s.txq ++ s.nq).length = n →
    Ready (serves n s) ∧ (serves n s).txq = [] ∧ (serves n s).nq = [] ∧
      (∃ es, (serves n s).trace = s.trace ++ es ∧ Good es ∧ ∀ m ∈ s.txq ++ s.nq, .answer m.uid m.iid ∈ es) := by
  induction n with
  | zero =>
    intro s h hl
    have := List.length_eq_zero_iff.1 hl
    have ⟨h1, h2⟩ := List.append_eq_nil_iff.1 this
    exact ⟨h, h1, h2, [], by simp [serves], (by intro e he; cases he), by rw [this]; simp⟩
  | succ n ih =>
    intro s h hl
    have hne : s.txq ++ s.nq ≠ [] := by intro hc; rw [hc] at hl; cases hl
    obtain ⟨h1, m, h2, h3, h4, es, h5, h6, h7⟩ := serve_ready h hne
    obtain ⟨g1, g2, g3, es', g4, g6, g5⟩ := ih h1 (by omega)
    refine ⟨g1, g2, g3, es ++ es', ?_, h7.append g6, ?_⟩
    · show (serves n (serve s)).trace = _
      rw [g4, h5, List.append_assoc]
    · intro x hx
      rcases h3 x hx with rfl | hx
      · exact List.mem_append_left _ h6
      · exact List.mem_append_right _ (g5 x hx)

/-- The station is connected and accepted, no CALL of it is outstanding and no request of the CSMS waits for its reply. -/
structure Idle (s : St) : Prop where
  fault : s.fault = none
  running : s.running = true
  connected : s.paused = false
  accepted : s.accepted = true
  replied : s.hold = none
  free : s.inFlight = none

theorem ready_of (cfg : Cfg) (now : Int) (ops : List Op)
    (hops : Along (fun s op => ∀ b, op = .run b → midFail s b = false) (init cfg now) ops)
    (hi : Idle (run (init cfg now) ops)) (hd : ∀ m ∈ (run (init cfg now) ops).txq ++ (run (init cfg now) ops).nq,
      m.ts ≤ (run (init cfg now) ops).now) (hw : (run (init cfg now) ops).newMsg = true) : Ready (run (init cfg now) ops) := by
  have hS := run_sinv _ (init_sinv cfg now) ops
  have hJ := run_J07 cfg now ops hops
  generalize run (init cfg now) ops = s at *
  refine ⟨hi.fault, hi.running, hi.connected, hi.accepted, hi.replied, hi.free, fun _ => hw, hd, ?_, ?_⟩
  · intro m hm
    rcases List.mem_append.1 hm with hm | hm
    · exact hJ.tx m hm
    · exact hJ.n m hm
  · have h1 : (s.txq.map Msg.iid).Nodup := hS.inv.txqNodup
    have h2 : (infN s.inFlight ++ s.nq.map Msg.iid).Nodup := hS.inv.nNodup
    have h3 : ∀ i ∈ infN s.inFlight ++ s.nq.map Msg.iid, i ∉ s.dbT.map Row.iid := hS.inv.nDisj
    have h4 : s.dbT.map Row.iid = (infTx s.inFlight).map Prod.fst ++ s.txq.map Msg.iid := hS.inv.ids
    rw [hi.free] at h2 h3 h4
    rw [List.map_append, List.nodup_append]
    refine ⟨h1, (List.nodup_append.1 h2).2.1, ?_⟩
    intro a ha b hb hab
    subst hab
    exact h3 a (List.mem_append_right _ hb) (by rw [h4]; exact List.mem_append_right _ ha)

/-- **C248, partial.** (Missing: histories with the defect of C07; messages for which the worker does not wake up, see C12.)
In every reachable state in which the station is connected, accepted and idle, the time of every queued message has come
and the worker is awake: if the connection works and the CSMS answers, every queued message is transmitted and answered,
in as many rounds as there are messages, and the queue is empty. -/
theorem C248_partial (cfg : Cfg) (now : Int) (ops : List Op)
    (hops : Along (fun s op => ∀ b, op = .run b → midFail s b = false) (init cfg now) ops)
    (hi : Idle (run (init cfg now) ops)) (hd : ∀ m ∈ (run (init cfg now) ops).txq ++ (run (init cfg now) ops).nq,
      m.ts ≤ (run (init cfg now) ops).now) (hw : (run (init cfg now) ops).newMsg = true) :
    let s := run (init cfg now) ops
    let s' := serves (s.txq.length + s.nq.length) s
    (∀ m ∈ s.txq ++ s.nq, .answer m.uid m.iid ∈ s'.trace) ∧ s'.txq = [] ∧ s'.nq = [] ∧ pendingTx s'.trace = [] ∧ Idle s' := by
  intro s s'
  have h := ready_of cfg now ops hops hi hd hw
  obtain ⟨g1, g2, g3, es, g4, _, g5⟩ := serves_ready (s.txq.length + s.nq.length) h (by simp [s])
  refine ⟨fun m hm => ?_, g2, g3, ?_, g1.fault, g1.running, g1.paused, g1.accepted, g1.hold, g1.inFlight⟩
  · show _ ∈ (serves _ s).trace
    rw [g4]; exact List.mem_append_right _ (g5 m hm)
  · have e := serves_run (s.txq.length + s.nq.length) s
    have hS : SInv (serves (s.txq.length + s.nq.length) s) := by
      rw [e]; exact run_sinv _ (run_sinv _ (init_sinv cfg now) ops) _
    show pendingTx (serves (s.txq.length + s.nq.length) s).trace = []
    have h1 : pendingTx (serves (s.txq.length + s.nq.length) s).trace =
      (serves (s.txq.length + s.nq.length) s).dbT.map Row.iid := hS.inv.spec
    have h2 : (serves (s.txq.length + s.nq.length) s).dbT.map Row.iid =
      (infTx (serves (s.txq.length + s.nq.length) s).inFlight).map Prod.fst ++
        (serves (s.txq.length + s.nq.length) s).txq.map Msg.iid := hS.inv.ids
    have h3 := g1.inFlight
    change (serves (s.txq.length + s.nq.length) s).inFlight = none at h3
    change (serves (s.txq.length + s.nq.length) s).txq = [] at g2
    rw [h1, h2, h3, g2]
    rfl

theorem dispatch_awake (s : St) (hS : SInv s) (k : Kind) (t : Bool) (hk : k.isTx = true) (hi : Idle s)
    (hd : ∀ m ∈ s.txq ++ s.nq, m.ts ≤ s.now) :
    Idle (step s (.run (.dispatch k t))) ∧ (step s (.run (.dispatch k t))).newMsg = true ∧
      ∀ m ∈ (step s (.run (.dispatch k t))).txq ++ (step s (.run (.dispatch k t))).nq,
        m.ts ≤ (step s (.run (.dispatch k t))).now := by
  have e : ∃ st tr, step s (.run (.dispatch k t)) = ({ s with writes := [] } : St).pushCall k st tr := by
    have e0 : step s (.run (.dispatch k t)) = ({ s with writes := [] } : St).dispatch k t := by
      simp [step, hi.fault, baseStep]
    rw [e0]
    unfold St.dispatch
    dsimp only
    split
    · exact ⟨_, _, rfl⟩
    · exact ⟨_, _, rfl⟩
    · rename_i hp
      exfalso
      rw [hk] at hp
      unfold prio at hp
      split at hp <;> simp at hp
  obtain ⟨st, tr, e⟩ := e
  have hF := pushFrame_pushCall ({ s with writes := [] } : St) k st tr
  have hn : (({ s with writes := [] } : St).pushCall k st tr).newMsg = true := by
    unfold St.pushCall St.fresh
    simp only [hi.running, hk, Bool.not_true, Bool.false_eq_true, if_false, if_true]
    unfold St.addTx
    dsimp only
    rw [(frame_checkSizes _).eq]
  rw [e]
  generalize ({ s with writes := [] } : St).pushCall k st tr = z at hF hn ⊢
  obtain ⟨f1, f2, f3, f4, f5⟩ := hF
  have hz : z.now = s.now := by rw [f1]
  refine ⟨⟨f3 hi.fault hS.psLt, ?_, ?_, ?_, ?_, ?_⟩, hn, ?_⟩
  · rw [f1]; exact hi.running
  · rw [f1]; exact hi.connected
  · rw [f1]; exact hi.accepted
  · rw [f1]; exact hi.replied
  · rw [f1]; exact hi.free
  · rw [hz]
    rcases f4 with ⟨h1, h2⟩ | ⟨_, m, _, _, _, h1, _, h2⟩
    · rw [h1, h2]; exact hd
    · intro x hx
      have : x = m ∨ x ∈ s.txq ++ s.nq := by
        rcases h2 with ⟨h2, h3⟩ | ⟨h2, h3 | h3⟩ <;> rcases List.mem_append.1 hx with hx | hx
        · have := h2.subset hx; simp at this ⊢; grind
        · have := h3.subset hx; simp at this ⊢; grind
        · have := h2.subset hx; simp at this ⊢; grind
        · have := h3.subset hx; simp at this ⊢; grind
        · have := h2.subset hx; simp at this ⊢; grind
        · have := h3.subset hx; simp at this ⊢; grind
      rcases this with rfl | hx
      · rw [h1]; exact Int.le_refl _
      · exact hd x hx

theorem along_append {ok : St → Op → Prop} (a : List Op) (s : St) (b : List Op) :
    Along ok s (a ++ b) ↔ Along ok s a ∧ Along ok (run s a) b := by
  induction a generalizing s with
  | nil => simp [Along, run]
  | cons x a ih =>
    simp only [List.cons_append, Along, ih]
    exact ⟨fun ⟨h1, h2, h3⟩ => ⟨⟨h1, h2⟩, h3⟩, fun ⟨⟨h1, h2⟩, h3⟩ => ⟨h1, h2, h3⟩⟩

/-- **C248, next message.** (Partial: histories without the defect of C07.) In every reachable state in which the station
is connected, accepted and idle and the time of every queued message has come, also if the worker sleeps: when the
application hands over a further transaction-related message, and the connection works and the CSMS answers, then
everything that is in the queue is transmitted and answered. -/
theorem C248_next_partial (cfg : Cfg) (now : Int) (ops : List Op)
    (hops : Along (fun s op => ∀ b, op = .run b → midFail s b = false) (init cfg now) ops)
    (hi : Idle (run (init cfg now) ops)) (hd : ∀ m ∈ (run (init cfg now) ops).txq ++ (run (init cfg now) ops).nq,
      m.ts ≤ (run (init cfg now) ops).now) (k : Kind) (hk : k.isTx = true) (t : Bool) :
    let s := step (run (init cfg now) ops) (.run (.dispatch k t))
    let s' := serves (s.txq.length + s.nq.length) s
    (∀ m ∈ s.txq ++ s.nq, .answer m.uid m.iid ∈ s'.trace) ∧ s'.txq = [] ∧ s'.nq = [] ∧ pendingTx s'.trace = [] ∧ Idle s' := by
  have ⟨h1, h2, h3⟩ := dispatch_awake _ (run_sinv _ (init_sinv cfg now) ops) k t hk hi hd
  have e : step (run (init cfg now) ops) (.run (.dispatch k t)) = run (init cfg now) (ops ++ [.run (.dispatch k t)]) := by
    simp [run]
  rw [e] at h1 h2 h3 ⊢
  refine C248_partial cfg now (ops ++ [.run (.dispatch k t)]) ?_ h1 h3 h2
  rw [along_append]
  refine ⟨hops, ?_, trivial⟩
  rintro b hb
  cases hb
  rfl

/-- Three messages pile up while the connection is down; two of them and a timed out one are delivered afterwards. -/
def backlog : List Op :=
  [.run (.resume false), .run (.dispatch .boot false), .run (.worker true), .run (.recvResult 0), .run (.regStatus true),
   .run (.dispatch .txOther false), .run (.worker true), .run .timeout, .run (.dispatch .txUpdate false),
   .run (.dispatch (.normal 3) false), .run .pause, .run (.dispatch .txOther false), .run (.tick 100), .run (.resume false)]

example : Along (fun s op => ∀ b, op = .run b → midFail s b = false) (init {} 0) backlog ∧ Idle (run (init {} 0) backlog) ∧
    (∀ m ∈ (run (init {} 0) backlog).txq ++ (run (init {} 0) backlog).nq, m.ts ≤ (run (init {} 0) backlog).now) ∧
    (run (init {} 0) backlog).newMsg = true ∧
    ((run (init {} 0) backlog).txq ++ (run (init {} 0) backlog).nq).map Msg.iid = [1, 3, 5, 4] ∧
    txSends (serves 4 (run (init {} 0) backlog)).trace = [1, 1, 3, 5] := by
  refine ⟨along_of_check _ _ (by decide +kernel), ⟨by decide +kernel, by decide +kernel, by decide +kernel, by decide +kernel,
    by decide +kernel, by decide +kernel⟩, by decide +kernel, by decide +kernel, by decide +kernel, by decide +kernel⟩

/-- A message that was handed over before the station was accepted: the worker sleeps; the next message takes it along. -/
def asleep : List Op := [.run (.resume false), .run (.dispatch .txOther false), .run (.worker true), .run (.regStatus true)]

example : Along (fun s op => ∀ b, op = .run b → midFail s b = false) (init {} 0) asleep ∧ Idle (run (init {} 0) asleep) ∧
    (∀ m ∈ (run (init {} 0) asleep).txq ++ (run (init {} 0) asleep).nq, m.ts ≤ (run (init {} 0) asleep).now) ∧
    (run (init {} 0) asleep).newMsg = false ∧ txSends (serves 1 (run (init {} 0) asleep)).trace = [] ∧
    txSends (serves 2 (step (run (init {} 0) asleep) (.run (.dispatch .txOther false)))).trace = [0, 1] := by
  refine ⟨along_of_check _ _ (by decide +kernel), ⟨by decide +kernel, by decide +kernel, by decide +kernel, by decide +kernel,
    by decide +kernel, by decide +kernel⟩, by decide +kernel, by decide +kernel, by decide +kernel, by decide +kernel⟩

end Verif.MQ
