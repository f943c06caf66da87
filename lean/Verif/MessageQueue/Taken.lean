import Verif.MessageQueue.Settled

/-!
# What is put into the queue (C254)
-/

namespace Verif.MQ

/-- What a message has to be, and in which state the queue has to be, for a message that is handed to it to be queued: it runs, and the message concerns
a transaction, or is a BootNotification, or the connection is there or is being resumed, or everything is to be queued and this type is not
excluded from it. -/
def Queues (s : St) (k : Kind) : Prop :=
  s.running = true ∧ (k.isTx = true ∨ k = .boot ∨ s.paused = false ∨ s.resuming = true ∨ (s.cfg.queueAll = true ∧ k ∉ s.cfg.discard))

/-- When the dispatcher hands a message to the queue although the CSMS has not accepted the station: it is a BootNotification, it was requested by the
CSMS, or (only if nobody waits for its answer) it is kept for later: it concerns a transaction or everything is to be queued. -/
def Passes (s : St) (k : Kind) (requested waits : Bool) : Prop :=
  s.reg = true ∨ k = .boot ∨ (requested = true ∧ (waits = true → s.cfg.v2 = false)) ∨ (waits = false ∧ (k.isTx = true ∨ s.cfg.queueAll = true))

theorem takesNormal_iff (s : St) (k : Kind) : s.takesNormal k = true ↔
    k = .boot ∨ s.paused = false ∨ s.resuming = true ∨ (s.cfg.queueAll = true ∧ k ∉ s.cfg.discard) := by
  simp only [St.takesNormal, Cfg.checkQueue, Bool.or_eq_true, Bool.not_eq_true', Bool.and_eq_true, decide_eq_true_eq, List.contains_eq_mem,
    decide_eq_false_iff_not]
  constructor
  · rintro (((h | h) | h) | h)
    · exact Or.inr (Or.inl h)
    · exact Or.inr (Or.inr (Or.inl h))
    · exact Or.inr (Or.inr (Or.inr h))
    · exact Or.inl h
  · rintro (h | h | h | h)
    · exact Or.inr h
    · exact Or.inl (Or.inl (Or.inl h))
    · exact Or.inl (Or.inl (Or.inr h))
    · exact Or.inl (Or.inr h)

theorem pushCall_taken (s : St) (k : Kind) (stall trig : Bool) (hn : .push s.nextId k ∉ s.trace) :
    .push s.nextId k ∈ (s.pushCall k stall trig).trace ↔ Queues s k := by
  have hd : ∀ (t : St) (m : Msg), .push m.iid m.kind ∉ t.trace →
      (.push m.iid m.kind ∈ (if !t.running then t else if m.kind.isTx then t.addTx m
        else if t.takesNormal m.kind then t.addNormal m else t).trace ↔ Queues t m.kind) := by
    intro t m hm
    by_cases hr : t.running = true
    · rw [if_neg (by simp [hr])]
      by_cases hx : m.kind.isTx = true
      · rw [if_pos hx]
        exact ⟨fun _ => ⟨hr, Or.inl hx⟩, fun _ => addTx_push _ _⟩
      · rw [if_neg hx]
        by_cases ht : t.takesNormal m.kind = true
        · rw [if_pos ht]
          exact ⟨fun _ => ⟨hr, Or.inr ((takesNormal_iff _ _).mp ht)⟩, fun _ => addNormal_push _ _⟩
        · rw [if_neg ht]
          refine ⟨fun h => absurd h hm, fun h => absurd ((takesNormal_iff _ _).mpr ?_) ht⟩
          exact h.2.resolve_left hx
    · rw [if_pos (by simp [hr])]
      exact ⟨fun h => absurd h hm, fun h => absurd h.1 hr⟩
  exact hd (s.fresh k stall trig).1 (s.fresh k stall trig).2 hn

theorem pushCallAsync_taken (s : St) (k : Kind) (trig : Bool) (hn : .push s.nextId k ∉ s.trace) :
    .push s.nextId k ∈ (s.pushCallAsync k trig).trace ↔ Queues s k := by
  have hd : ∀ (t : St) (m : Msg), .push m.iid m.kind ∉ t.trace →
      (.push m.iid m.kind ∈ (if !t.running then t.fulfil m.iid true else if m.kind.isTx then t.addTx m
        else if t.takesNormal m.kind then t.addNormal m else t.fulfil m.iid true).trace ↔ Queues t m.kind) := by
    intro t m hm
    have hfu : .push m.iid m.kind ∉ (t.fulfil m.iid true).trace := by
      unfold St.fulfil
      split
      · exact hm
      · simpa [St.emit] using hm
    by_cases hr : t.running = true
    · rw [if_neg (by simp [hr])]
      by_cases hx : m.kind.isTx = true
      · rw [if_pos hx]
        exact ⟨fun _ => ⟨hr, Or.inl hx⟩, fun _ => addTx_push _ _⟩
      · rw [if_neg hx]
        by_cases ht : t.takesNormal m.kind = true
        · rw [if_pos ht]
          exact ⟨fun _ => ⟨hr, Or.inr ((takesNormal_iff _ _).mp ht)⟩, fun _ => addNormal_push _ _⟩
        · rw [if_neg ht]
          refine ⟨fun h => absurd h hfu, fun h => absurd ((takesNormal_iff _ _).mpr ?_) ht⟩
          exact h.2.resolve_left hx
    · rw [if_pos (by simp [hr])]
      exact ⟨fun h => absurd h hfu, fun h => absurd h.1 hr⟩
  exact hd (s.fresh k false trig).1 (s.fresh k false trig).2 hn

/-- The number of the next message is new. -/
theorem nextId_new (cfg : Cfg) (now : Int) (ops : List Op) (k : Kind) :
    .push (run (init cfg now) ops).nextId k ∉ (run (init cfg now) ops).trace := by
  intro h
  have hS : SInv (run (init cfg now) ops) := run_sinv _ (init_sinv cfg now) ops
  have hp := hS.inv.pushed
  rw [List.pairwise_append] at hp
  have hm : (run (init cfg now) ops).nextId ∈ pushIds (run (init cfg now) ops).trace := List.mem_filterMap.mpr ⟨_, h, rfl⟩
  exact absurd (hp.2.2 _ hm _ (List.mem_singleton_self _)) (Nat.lt_irrefl _)

theorem step_base (s : St) (b : BaseOp) (hf : s.fault = none) : step s (.run b) = baseStep { s with writes := [] } b := by
  unfold step
  rw [if_neg (by simp [hf])]

/-- **C254**: in every reachable state a message handed to the queue is put into it exactly if the queue runs and the message concerns a transaction, is a
BootNotification, the connection is there or being resumed, or everything is to be queued and its type is not excluded. -/
theorem C254_pushed (cfg : Cfg) (now : Int) (ops : List Op) (k : Kind) (stall : Bool) (hf : (run (init cfg now) ops).fault = none) :
    let s := run (init cfg now) ops
    (.push s.nextId k ∈ (step s (.run (.push k stall))).trace ↔ Queues s k) ∧
    (.push s.nextId k ∈ (step s (.run (.pushAsync k))).trace ↔ Queues s k) := by
  intro s
  rw [step_base s _ hf, step_base s _ hf]
  exact ⟨pushCall_taken { s with writes := [] } k stall false (nextId_new cfg now ops k),
    pushCallAsync_taken { s with writes := [] } k false (nextId_new cfg now ops k)⟩

/-- **C254**: a message that is dispatched (`requested`: by order of the CSMS) is put into the queue exactly if besides the dispatcher lets it pass. -/
theorem C254_dispatched (cfg : Cfg) (now : Int) (ops : List Op) (k : Kind) (requested : Bool) (hf : (run (init cfg now) ops).fault = none) :
    let s := run (init cfg now) ops
    (.push s.nextId k ∈ (step s (.run (.dispatch k requested))).trace ↔ Passes s k requested false ∧ Queues s k) ∧
    (.push s.nextId k ∈ (step s (.run (.dispatchAsync k requested))).trace ↔ Passes s k requested true ∧ Queues s k) := by
  intro s
  rw [step_base s _ hf, step_base s _ hf]
  have hn := nextId_new cfg now ops k
  have h1 := fun st tr => pushCall_taken { s with writes := [] } k st tr hn
  have h2 := fun tr => pushCallAsync_taken { s with writes := [] } k tr hn
  have hq : Queues { s with writes := [] } k ↔ Queues s k := Iff.rfl
  have hnw : ¬ Ev.push s.nextId k ∈ ({ s with writes := [] } : St).trace := hn
  constructor
  · show Ev.push s.nextId k ∈ (({ s with writes := [] } : St).dispatch k requested).trace ↔ _
    unfold St.dispatch prio
    show Ev.push s.nextId k ∈ (match (if (s.reg || decide (k = Kind.boot) || requested) = true then Prio.immediately
      else if (k.isTx || s.cfg.queueAll) = true then .afterAccepted else .discard) with
      | .immediately => ({ s with writes := [] } : St).pushCall k false requested
      | .afterAccepted => ({ s with writes := [] } : St).pushCall k true requested
      | .discard => { s with writes := [] }).trace ↔ _
    by_cases ha : (s.reg || decide (k = Kind.boot) || requested) = true
    · rw [if_pos ha]
      dsimp only
      rw [h1, hq]
      have : Passes s k requested false := by
        simp only [Bool.or_eq_true, decide_eq_true_eq] at ha
        rcases ha with (h | h) | h
        · exact Or.inl h
        · exact Or.inr (Or.inl h)
        · exact Or.inr (Or.inr (Or.inl ⟨h, by simp⟩))
      exact ⟨fun h => ⟨this, h⟩, fun h => h.2⟩
    · rw [if_neg ha]
      simp only [Bool.or_eq_true, decide_eq_true_eq, not_or] at ha
      by_cases hb : (k.isTx || s.cfg.queueAll) = true
      · rw [if_pos hb]
        dsimp only
        rw [h1, hq]
        have : Passes s k requested false := Or.inr (Or.inr (Or.inr ⟨rfl, by simpa using hb⟩))
        exact ⟨fun h => ⟨this, h⟩, fun h => h.2⟩
      · rw [if_neg hb]
        dsimp only
        refine ⟨fun h => absurd h hnw, fun h => ?_⟩
        rcases h.1 with h | h | h | h
        · exact absurd h ha.1.1
        · exact absurd h ha.1.2
        · exact absurd h.1 ha.2
        · exact absurd (by simpa using h.2) hb
  · show Ev.push s.nextId k ∈ (({ s with writes := [] } : St).dispatchAsync k requested).trace ↔ _
    unfold St.dispatchAsync prio
    show Ev.push s.nextId k ∈ (match (if (s.reg || decide (k = Kind.boot) || (requested && !s.cfg.v2)) = true then Prio.immediately
      else if (k.isTx || s.cfg.queueAll) = true then .afterAccepted else .discard) with
      | .immediately => ({ s with writes := [] } : St).pushCallAsync k (requested && !s.cfg.v2)
      | _ => { s with writes := [] }).trace ↔ _
    by_cases ha : (s.reg || decide (k = Kind.boot) || (requested && !s.cfg.v2)) = true
    · rw [if_pos ha]
      dsimp only
      rw [h2, hq]
      have : Passes s k requested true := by
        simp only [Bool.or_eq_true, decide_eq_true_eq, Bool.and_eq_true, Bool.not_eq_true'] at ha
        rcases ha with (h | h) | h
        · exact Or.inl h
        · exact Or.inr (Or.inl h)
        · exact Or.inr (Or.inr (Or.inl ⟨h.1, fun _ => h.2⟩))
      exact ⟨fun h => ⟨this, h⟩, fun h => h.2⟩
    · rw [if_neg ha]
      simp only [Bool.or_eq_true, decide_eq_true_eq, not_or, Bool.and_eq_true, Bool.not_eq_true'] at ha
      have hno : ¬ Passes s k requested true := by
        rintro (h | h | h | h)
        · exact ha.1.1 h
        · exact ha.1.2 h
        · exact ha.2 ⟨h.1, h.2 rfl⟩
        · cases h.1
      by_cases hb : (k.isTx || s.cfg.queueAll) = true
      · rw [if_pos hb]
        exact ⟨fun h => absurd h hnw, fun h => absurd h.1 hno⟩
      · rw [if_neg hb]
        exact ⟨fun h => absurd h hnw, fun h => absurd h.1 hno⟩

/-- Both sides occur: without a connection a heartbeat is not queued, a message of a transaction is; while the connection is resumed both are. -/
example : ¬ Queues (init {} 0) (.normal 3) ∧ Queues (init {} 0) .txStart ∧ Queues (run (init {} 0) [.run (.resume true), .run .pause, .run (.resume true)]) (.normal 3) ∧
    (run (init {} 0) [.run (.resume true), .run .pause, .run (.resume true)]).paused = true ∧ ¬ Passes (init {} 0) (.normal 3) false false ∧ Passes (init {} 0) .txStart false false := by
  refine ⟨?_, ?_, ?_, by decide +kernel, ?_, ?_⟩
  · rintro ⟨_, h⟩
    revert h
    decide
  · exact ⟨rfl, Or.inl rfl⟩
  · exact ⟨by decide +kernel, Or.inr (Or.inr (Or.inr (Or.inl (by decide +kernel))))⟩
  · rintro (h | h | h | h)
    · exact absurd h (by decide)
    · exact absurd h (by decide)
    · exact absurd h.1 (by decide)
    · exact absurd h.2 (by decide)
  · exact Or.inr (Or.inr (Or.inr ⟨rfl, Or.inl rfl⟩))

end Verif.MQ
