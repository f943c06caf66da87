import Verif.Boot.Theorems
import Verif.MessageQueue.OpCases
/-!
Theorems on registration, continued.

C126: witnesses against the unconditional claim.  C127: registration after the application stopped and restarted the station.  C128: heartbeats.
C129: requests of the CSMS before the station is accepted.
-/

namespace Verif.Boot
open Verif.MQ

/-! ## C126: witnesses -/

theorem not_trying {s : St} (h1 : s.mq.nq.all (fun m => !(m.kind == .boot)) = true) (h2 : s.mq.inFlight = none) (h3 : s.handling = none) (h4 : s.timer = none) : ¬ Trying s := by
  rintro (⟨m, hm, hk, _⟩ | ⟨m, hm, _⟩ | h | h)
  · have := List.all_eq_true.1 h1 m hm; simp [hk] at this
  · rw [h2] at hm; cases hm
  · rw [h3] at h; cases h
  · rw [h4] at h; cases h

/-- A smooth history: a failed answer, waiting, a repetition. -/
def smoothDemo (v2 : Bool) : List Op :=
  [.resume false, .connected, .queue (.worker true), .recv 0 .rejected 5, .handle, .queue (.dispatch .txStart false), .tick 5, .timer, .queue (.worker true),
   .queue (.callError 2), .setHeartbeat (if v2 then 7 else 8)]

theorem smoothRun_of {s : St} {ops : List Op} (h : ∀ (i : Nat) op, ops[i]? = some op → Smooth (run s (ops.take i)) op) : SmoothRun s ops := by
  induction ops generalizing s with
  | nil => trivial
  | cons op ops ih =>
    refine ⟨h 0 op rfl, ih fun i o ho => ?_⟩
    have := h (i + 1) o (by simpa using ho)
    simpa [run] using this

instance (s : St) (op : Op) : Decidable (Smooth s op) := by
  unfold Smooth
  have d1 : Decidable (∀ o, op = Op.queue o → o ≠ .worker false) := by
    cases op with
    | queue o =>
      exact match o with
        | .worker false => isFalse fun h => h _ rfl rfl
        | .worker true | .push _ _ | .pushAsync _ | .dispatch _ _ | .dispatchAsync _ _ | .recvResult _ | .recvError _ | .runError | .timerFire | .runTimeout | .timeout
        | .callError _ | .csmsCall _ | .reply _ | .resetHold | .pause | .resume _ | .resumeFire _ | .regStatus _ | .notifyFire | .tick _ | .stop | .addStopped _ _
        | .addMeterValueId _ _ | .notifyStart _ _ | .setAttempts _ | .setRetryInterval _ | .restart _ _ => isTrue (by intro o h; cases h; simp)
    | _ => exact isTrue (by intro o h; cases h)
  have d2 : Decidable (op = Op.handle → s.mq.cfg.v2 = true ∨ s.conn ≠ .disconnected) := by
    cases op with
    | handle => exact decidable_of_iff (s.mq.cfg.v2 = true ∨ s.conn ≠ .disconnected) ⟨fun h _ => h, fun h => h rfl⟩
    | _ => exact isTrue (by intro h; cases h)
  have d3 : Decidable (∀ cfg ign, op = Op.powerCycle cfg ign ∨ op = .restart16 cfg ign → s.mq.dbN.length + s.mq.dbT.length < cfg.threshold) := by
    cases op with
    | powerCycle c i => exact decidable_of_iff (s.mq.dbN.length + s.mq.dbT.length < c.threshold) ⟨fun h _ _ e => by rcases e with e | e <;> cases e; exact h, fun h => h c i (.inl rfl)⟩
    | restart16 c i => exact decidable_of_iff (s.mq.dbN.length + s.mq.dbT.length < c.threshold) ⟨fun h _ _ e => by rcases e with e | e <;> cases e; exact h, fun h => h c i (.inr rfl)⟩
    | _ => exact isTrue (by intro _ _ h; rcases h with h | h <;> cases h)
  infer_instance

instance decSmoothRun : (s : St) → (ops : List Op) → Decidable (SmoothRun s ops)
  | _, [] => isTrue trivial
  | s, op :: ops => by unfold SmoothRun; have := decSmoothRun (step s op) ops; infer_instance

/-- `smoothDemo` meets the hypotheses of `C126_partial` in both versions. -/
example : ∀ v2 : Bool, SmoothRun (start { v2 := v2 } 0 9) (smoothDemo v2) ∧ (run (start { v2 := v2 } 0 9) (smoothDemo v2)).mq.fault = none ∧
    (run (start { v2 := v2 } 0 9) (smoothDemo v2)).status ≠ .accepted := by decide +kernel

/-- C126 is violated (1): the BootNotification is in front of the queue and the first to be dropped when the queue is full. -/
theorem C126_overflow_violated : ∃ ops : List Op, let s := run (start { v2 := true, threshold := 2 } 0 300) ops
    s.mq.fault = none ∧ s.status ≠ .accepted ∧ ¬ Trying s := by
  refine ⟨[.queue (.dispatch .txStart false), .queue (.dispatch .txOther false)], by decide +kernel, by decide +kernel, ?_⟩
  exact not_trying (by decide +kernel) (by decide +kernel) (by decide +kernel) (by decide +kernel)

/-- C126 is violated (2): the transmission of the BootNotification fails, it is not put back. -/
theorem C126_send_violated : ∀ v2 : Bool, ∃ ops : List Op, let s := run (start { v2 := v2 } 0 300) ops
    s.mq.fault = none ∧ s.status ≠ .accepted ∧ ¬ Trying s := by
  intro v2
  refine ⟨[.resume false, .connected, .queue (.worker false)], ?_, ?_, ?_⟩
  · revert v2; decide +kernel
  · revert v2; decide +kernel
  · refine not_trying ?_ ?_ ?_ ?_ <;> (revert v2; decide +kernel)

/-- C126 is violated (3): with QueueAllMessages the BootNotification is given up after the configured attempts. -/
theorem C126_giveup_violated : ∃ ops : List Op, let s := run (start { v2 := true, queueAll := true, attempts := 1, retryInterval := 0 } 0 300) ops
    s.mq.fault = none ∧ s.status ≠ .accepted ∧ ¬ Trying s := by
  refine ⟨[.resume false, .queue (.worker true), .queue (.callError 0)], by decide +kernel, by decide +kernel, ?_⟩
  exact not_trying (by decide +kernel) (by decide +kernel) (by decide +kernel) (by decide +kernel)

/-- C126 is violated (4), 1.6: the answer Accepted arrives before the application's thread has noted that the connection is up; it is ignored, nothing is sent again. -/
theorem C126_race_violated : ∃ ops : List Op, let s := run (start { v2 := false } 0 300) ops
    s.mq.fault = none ∧ s.status ≠ .accepted ∧ ¬ Trying s := by
  refine ⟨[.resume false, .queue (.worker true), .recv 0 .accepted 300, .handle, .connected], by decide +kernel, by decide +kernel, ?_⟩
  exact not_trying (by decide +kernel) (by decide +kernel) (by decide +kernel) (by decide +kernel)

/-! ## C127 -/

/-- The events after `tr` transmit no message that waits for the station to be accepted. -/
def NoStalled (tr tr' : List Ev) : Prop := ∃ es, tr' = tr ++ es ∧ ∀ m, .send m ∈ es → m.stall = false

theorem NoStalled.refl (tr : List Ev) : NoStalled tr tr := ⟨[], by simp, by simp⟩

theorem NoStalled.trans {a b c : List Ev} (h : NoStalled a b) (h' : NoStalled b c) : NoStalled a c := by
  obtain ⟨e1, h1, g1⟩ := h
  obtain ⟨e2, h2, g2⟩ := h'
  refine ⟨e1 ++ e2, by rw [h2, h1, List.append_assoc], fun m hm => ?_⟩
  rcases List.mem_append.1 hm with h | h
  · exact g1 m h
  · exact g2 m h

theorem op_same {s : MQ.St} {b : BaseOp} {s' : MQ.St} (v : OpView s b s') (hb : ∀ a, b ≠ .regStatus a) :
    s'.accepted = s.accepted ∧ s'.cfg.v2 = s.cfg.v2 := by
  cases v with
  | push _ _ hp => rw [hp.eq]; exact ⟨rfl, rfl⟩
  | sent q m s' h0 h1 h2 _ _ _ v => rw [v.eq]; exact ⟨rfl, rfl⟩
  | fail q m s' h0 h1 h2 _ _ v => rw [v.eq]; exact ⟨rfl, rfl⟩
  | result u s' _ v => rw [v.eq]; exact ⟨rfl, rfl⟩
  | seen z v => rw [v.eq]; exact ⟨rfl, rfl⟩
  | failed m z s' _ v1 v => rw [v.eq, v1.eq]; exact ⟨rfl, rfl⟩
  | acc a h => exact absurd h (hb a)
  | cfg c h => exact ⟨rfl, h⟩
  | _ => exact ⟨rfl, rfl⟩

theorem op_noStalled {s : MQ.St} {b : BaseOp} {s' : MQ.St} (v : OpView s b s') (ha : s.accepted = false) : NoStalled s.trace s'.trace := by
  by_cases hp : s.paused = true ∨ s.inFlight.isSome = true ∨ b ≠ .worker true
  · obtain ⟨es, h1, h2⟩ := op_noSend v hp
    exact ⟨es, h1, fun m hm => absurd rfl (h2 _ hm m)⟩
  · cases v with
    | sent q m s' h0 h1 h2 h3 h4 h5 v =>
      rw [v.eq]
      refine ⟨[_], rfl, fun x hx => ?_⟩
      simp only [List.mem_cons, List.not_mem_nil, or_false, Ev.send.injEq] at hx
      subst hx
      have hal : m.allowed s.now s.accepted = true := by
        rcases h5 with ⟨_, h⟩ | ⟨_, _, h⟩
        · unfold St.selTx at h
          split at h
          · cases h
          · split at h
            · rename_i hc; cases h; simp only [Bool.and_eq_true] at hc; exact hc.1
            · cases h
        · unfold St.selNormal at h; have := List.find?_some h; exact this
      unfold Msg.allowed at hal
      rw [ha] at hal
      show m.stall = false
      revert hal
      cases m.stall <;> simp
    | push _ hb _ => exact absurd (.inr (.inr (by intro h; rw [h] at hb; cases hb))) hp
    | nop => exact .refl _
    | sleep => exact .refl _
    | fail q m s' h => exact absurd (.inr (.inr (by rw [h]; simp))) hp
    | result u s' h => exact absurd (.inr (.inr (by rw [h]; simp))) hp
    | seen z hz =>
      obtain ⟨es, h5, h6⟩ := hz.trace
      exact ⟨es, h5, fun m hm => absurd rfl (isIn_noSend h6 _ hm m)⟩
    | failed m z s' h => exact absurd (.inr (.inl (by rw [h]; rfl))) hp
    | csmsCall | reply | acc => exact ⟨[_], rfl, by simp⟩
    | _ => exact .refl _

theorem step_op {q : MQ.St} {b : BaseOp} (hr : b.isRestart = false) (hb : ∀ a, b ≠ .regStatus a) (ha : q.accepted = false) (hf : q.fault = none) :
    (MQ.step q (.run b)).accepted = false ∧ (MQ.step q (.run b)).cfg.v2 = q.cfg.v2 ∧ NoStalled q.trace (MQ.step q (.run b)).trace := by
  rw [step_run _ _ hf]
  have v := opView { q with writes := [] } b hr
  exact ⟨(op_same v hb).1.trans ha, (op_same v hb).2, op_noStalled (s := { q with writes := [] }) v ha⟩

theorem loadRows_trace (k : Q) (ign : Bool) (rows : List Row) (q : MQ.St) : NoStalled q.trace (q.loadRows k ign rows).trace := by
  induction rows generalizing q with
  | nil => exact .refl _
  | cons r rows ih =>
    unfold MQ.St.loadRows
    split
    · refine NoStalled.trans ?_ (ih _)
      exact ⟨[_], rfl, by simp⟩
    · refine NoStalled.trans ?_ (ih _)
      cases k <;> exact .refl _

theorem restart_trace (q : MQ.St) (cfg : Cfg) (ign : Bool) : NoStalled q.trace (q.restart cfg ign).trace := by
  unfold MQ.St.restart MQ.St.load
  have e1 : ∀ (c : Prop) [Decidable c] (z : MQ.St), (if c then { z with newMsg := true } else z).trace = z.trace := by intro c _ z; split <;> rfl
  have e2 : ∀ (c : Prop) [Decidable c] (z : MQ.St), (if c then z.db (.clear .normal) else z).trace = z.trace := by intro c _ z; split <;> rfl
  dsimp only
  rw [e2, e1]
  refine NoStalled.trans ?_ (loadRows_trace _ _ _ _)
  rw [e1]
  refine NoStalled.trans ?_ (loadRows_trace _ _ _ _)
  exact ⟨[.restart], rfl, by simp⟩

/-- The station of OCPP 1.6 thinks that it is registered, but its queue waits for that. -/
structure Stuck (tr : List Ev) (s : St) : Prop where
  v2 : s.mq.cfg.v2 = false
  conn : s.conn = .booted
  accepted : s.mq.accepted = false
  trace : NoStalled tr s.mq.trace

theorem stuck_q {tr : List Ev} {s : St} (h : Stuck tr s) {b : BaseOp} (hr : b.isRestart = false) (hb : ∀ a, b ≠ .regStatus a) (hf : s.mq.fault = none) : Stuck tr (s.q b) := by
  obtain ⟨h1, h2, h3⟩ := step_op hr hb h.accepted hf
  exact ⟨h2.trans h.v2, h.conn, h1, h.trace.trans h3⟩

theorem stuck_restart {tr : List Ev} {s : St} (cfg : Cfg) (ign : Bool) (hc : cfg.v2 = false) (hb : s.conn = .booted) (ht : NoStalled tr s.mq.trace) :
    Stuck tr (restart16 s cfg ign) := by
  unfold restart16
  obtain ⟨r1, r2, r3, r4, r5, r6⟩ := restart_same { s.mq with writes := [] } cfg ign
  rw [step_restart]
  have hs := restart_trace { s.mq with writes := [] } cfg ign
  generalize ({ s.mq with writes := [] } : MQ.St).restart cfg ign = q at *
  exact stuck_q (s := { s with mq := { q with reg := s.status == .accepted }, timer := none, hb := none, handling := none }) (b := .dispatch .boot false)
    ⟨by show q.cfg.v2 = false; rw [r2]; exact hc, hb, r4, ht.trans hs⟩ rfl (by simp) r3

theorem stuck_step {tr : List Ev} {s : St} (h : Stuck tr s) (op : Op) (ho : ∀ c i, op ≠ .powerCycle c i) : Stuck tr (step s op) := by
  cases hf : s.mq.fault with
  | some f => cases op <;> first | exact absurd rfl (ho _ _) | (simp only [step, hf, Option.isSome_some, if_true]; exact h)
  | none =>
    cases op with
    | powerCycle c i => exact absurd rfl (ho c i)
    | queue o =>
      simp only [step, hf, Option.isSome_none, Bool.false_eq_true, if_false]
      split
      · rename_i hp
        exact stuck_q h (by cases o <;> first | rfl | cases hp) (by rintro a rfl; cases hp) hf
      · exact h
    | recv u st i =>
      simp only [step, hf, Option.isSome_none, Bool.false_eq_true, if_false]
      unfold recv
      split
      · exact h
      · split
        · have := stuck_q h (b := .recvResult u) rfl (by simp) hf
          exact ⟨this.v2, this.conn, this.accepted, this.trace⟩
        · exact stuck_q h rfl (by simp) hf
    | handle =>
      simp only [step, hf, Option.isSome_none, Bool.false_eq_true, if_false]
      unfold handle
      split
      · exact h
      · simp only [h.v2, Bool.false_eq_true, if_false, h.conn, listens]
        exact ⟨h.v2, rfl, h.accepted, h.trace⟩
    | timer =>
      simp only [step, hf, Option.isSome_none, Bool.false_eq_true, if_false]
      unfold timerFires
      split
      · split
        · exact stuck_q (s := { s with timer := none }) ⟨h.v2, h.conn, h.accepted, h.trace⟩ rfl (by simp) hf
        · exact h
      · exact h
    | trigger =>
      simp only [step, hf, Option.isSome_none, Bool.false_eq_true, if_false]
      exact stuck_q h rfl (by simp) hf
    | resume d =>
      simp only [step, hf, Option.isSome_none, Bool.false_eq_true, if_false]
      exact stuck_q h rfl (by simp) hf
    | connected =>
      simp only [step, hf, Option.isSome_none, Bool.false_eq_true, if_false]
      unfold connected
      rw [if_neg (by rw [h.conn]; simp)]
      exact h
    | disconnected =>
      simp only [step, hf, Option.isSome_none, Bool.false_eq_true, if_false]
      exact stuck_q h rfl (by simp) hf
    | tick d =>
      simp only [step, hf, Option.isSome_none, Bool.false_eq_true, if_false]
      exact stuck_q h rfl (by simp) hf
    | setHeartbeat n =>
      simp only [step, hf, Option.isSome_none, Bool.false_eq_true, if_false]
      unfold setHeartbeat
      split <;> exact ⟨h.v2, h.conn, h.accepted, h.trace⟩
    | restart16 cfg ign =>
      simp only [step, hf, Option.isSome_none, Bool.false_eq_true, if_false]
      split
      · exact h
      · rename_i hc
        simp only [Bool.or_eq_true, not_or, Bool.not_eq_true] at hc
        exact stuck_restart cfg ign hc.2 h.conn h.trace

theorem stuck_run {tr : List Ev} {s : St} (h : Stuck tr s) (ops : List Op) (ho : ∀ op ∈ ops, ∀ c i, op ≠ .powerCycle c i) : Stuck tr (run s ops) := by
  induction ops generalizing s with
  | nil => exact h
  | cons op ops ih => exact ih (stuck_step h op (ho op (by simp))) (fun o h => ho o (by simp [h]))

/-- The heartbeat timer is started by an accepted BootNotification or by setting the interval only. -/
theorem hb_step {tr : List Ev} {s : St} (h : Stuck tr s) (hb : s.hb = none) (op : Op) (ho : ∀ c i, op ≠ .powerCycle c i) (hn : ∀ n, op ≠ .setHeartbeat n) :
    (step s op).hb = none := by
  cases op with
  | powerCycle c i => exact absurd rfl (ho c i)
  | setHeartbeat n => exact absurd rfl (hn n)
  | handle =>
    simp only [step]
    split
    · exact hb
    · unfold handle
      split
      · exact hb
      · simp only [h.v2, Bool.false_eq_true, if_false, h.conn, listens]
        exact hb
  | queue o => simp only [step]; (repeat' split) <;> exact hb
  | recv u st i => simp only [step, recv]; (repeat' split) <;> exact hb
  | timer => simp only [step, timerFires]; (repeat' split) <;> exact hb
  | connected => simp only [step, connected]; (repeat' split) <;> exact hb
  | restart16 c i => simp only [step]; (repeat' split) <;> first | exact hb | rfl
  | _ => simp only [step]; split <;> exact hb

theorem hb_run {tr : List Ev} {s : St} (h : Stuck tr s) (hb : s.hb = none) (ops : List Op) (ho : ∀ op ∈ ops, ∀ c i, op ≠ .powerCycle c i)
    (hn : ∀ op ∈ ops, ∀ n, op ≠ .setHeartbeat n) : (run s ops).hb = none := by
  induction ops generalizing s with
  | nil => exact hb
  | cons op ops ih =>
    exact ih (stuck_step h op (ho op (by simp))) (hb_step h hb op (ho op (by simp)) (hn op (by simp))) (fun o h => ho o (by simp [h])) (fun o h => hn o (by simp [h]))

/-- C127 is violated (1): an OCPP 1.6 station that was registered once, is stopped and started again by the application ignores the answer to its BootNotification.
Whatever happens afterwards, until the process ends the queue is never told that the station is accepted: no message kept from before, and none that waits
for the registration, is ever transmitted, and no heartbeat timer is started (unless the CSMS sets the interval). -/
theorem C127_restart_violated (s : St) (cfg : Cfg) (ign : Bool) (ops : List Op) (hv : s.mq.cfg.v2 = false) (hc : cfg.v2 = false) (hf : s.mq.fault = none)
    (hb : s.conn = .booted) (ho : ∀ op ∈ ops, ∀ c i, op ≠ .powerCycle c i) :
    let s' := run (step s (.restart16 cfg ign)) ops
    s'.mq.accepted = false ∧ (∃ es, s'.mq.trace = s.mq.trace ++ es ∧ ∀ m, .send m ∈ es → m.stall = false) ∧
    ((∀ op ∈ ops, ∀ n, op ≠ .setHeartbeat n) → s'.hb = none) := by
  have e : step s (.restart16 cfg ign) = restart16 s cfg ign := by simp [step, hf, hv, hc]
  have h := stuck_restart (s := s) cfg ign hc hb (.refl _)
  have h' := stuck_run h ops ho
  dsimp only
  rw [e]
  exact ⟨h'.accepted, h'.trace, fun hn => hb_run h rfl ops ho hn⟩

/-- Registered, with a transaction message that could not be sent before the station was stopped; then the BootNotification is accepted again. -/
def restartDemo : List Op :=
  [.resume false, .connected, .queue (.worker true), .recv 0 .accepted 300, .handle, .disconnected, .queue (.dispatch .txStart false)]

/-- The hypotheses are met; the message is in the queue after the restart and the BootNotification is answered with Accepted. -/
example : let s := run (start { v2 := false } 0 300) restartDemo
    s.conn = .booted ∧ s.mq.fault = none ∧ s.mq.cfg.v2 = false ∧ s.hb = some 300 ∧
    (let s' := run (step s (.restart16 { v2 := false } false)) [.resume false, .connected, .queue (.worker true), .recv 2 .accepted 300, .handle]
     s'.mq.txq.map (·.kind) = [.txStart] ∧ s'.status = .accepted ∧ s'.mq.inFlight = none ∧ s'.hb = none) := by decide +kernel

/-- C127 is violated (2), 1.6: after a restart by the application other messages are transmitted although the BootNotification was not answered yet, or was rejected. -/
theorem C127_early_violated : ∃ ops ops' : List Op, let s := run (start { v2 := false } 0 300) ops
    let s' := run (step s (.restart16 { v2 := false } false)) ops'
    s'.mq.fault = none ∧ .recv 1 .rejected 300 ∈ ops' ∧
    ∃ es, s'.mq.trace = s.mq.trace ++ es ∧ .accepted ∉ es ∧ ∃ m, .send m ∈ es ∧ m.kind = .normal 0 ∧ m.trig = false := by
  refine ⟨[.resume false, .connected, .queue (.worker true), .recv 0 .accepted 300, .handle],
    [.resume false, .queue (.worker true), .recv 1 .rejected 300, .handle, .queue (.dispatch (.normal 0) false), .queue (.worker true)], by decide +kernel, by simp, ?_⟩
  refine ⟨_, (?_ : _ = _ ++ [.restart, .push 1 .boot, .send ⟨1, 1, .boot, 1, 0, false, none, false, false⟩, .recv 1, .fulfil 1 false, .answer 1 1, .done 1 .answered,
    .push 2 (.normal 0), .send ⟨2, 2, .normal 0, 1, 0, false, none, false, false⟩]), by decide, ⟨2, 2, .normal 0, 1, 0, false, none, false, false⟩, by simp, rfl, rfl⟩
  decide +kernel

/-- C127, partial: when a station that is not registered gets the answer Accepted, it is registered afterwards: the queue transmits what waited, and in OCPP 1.6 the
heartbeat timer runs.  Missing: a station restarted by its application (see above), and the conditions of C126. -/
theorem C127_partial (cfg : Cfg) (now hbKey : Int) (ops : List Op) (iv : Int) (ht : 0 < cfg.threshold) (hs : SmoothRun (start cfg now hbKey) (ops ++ [.handle]))
    (hf : (run (start cfg now hbKey) ops).mq.fault = none) (ha : (run (start cfg now hbKey) ops).status ≠ .accepted)
    (hh : (run (start cfg now hbKey) ops).handling = some (.accepted, iv)) :
    let s' := run (start cfg now hbKey) (ops ++ [.handle])
    s'.status = .accepted ∧ s'.mq.accepted = true ∧ s'.timer = none ∧ (s'.mq.cfg.v2 = false → s'.hb = some s'.hbKey) := by
  have split : ∀ (ops : List Op) (s : St), SmoothRun s (ops ++ [.handle]) → SmoothRun s ops ∧ Smooth (run s ops) .handle := by
    intro ops
    induction ops with
    | nil => intro s h; exact ⟨trivial, h.1⟩
    | cons op ops ih => intro s h; exact ⟨⟨h.1, (ih _ h.2).1⟩, (ih _ h.2).2⟩
  obtain ⟨h1, h2⟩ := split ops _ hs
  have hi : Inv (run (start cfg now hbKey) ops) := inv_run (inv_powerUp _ _ _ _ (by simpa [MQ.init] using ht)) ops h1
  have e : run (start cfg now hbKey) (ops ++ [.handle]) = step (run (start cfg now hbKey) ops) .handle := by simp [run]
  rw [e]
  generalize run (start cfg now hbKey) ops = s at *
  have hc := h2.2.2.2.1 rfl
  simp only [step, hf, Option.isSome_none, Bool.false_eq_true, if_false]
  have hq : (MQ.step s.mq (.run (.regStatus true))).accepted = true := by rw [step_run _ _ hf]; rfl
  obtain ⟨g1, g2, g3, g4⟩ := regStatus_same s.mq true hf
  unfold handle
  rw [hh]
  dsimp only
  cases hv : s.mq.cfg.v2 with
  | true =>
    simp only [if_true]
    have hv' : (MQ.step s.mq (.run (.regStatus true))).cfg.v2 = true := by rw [g4]; exact hv
    simp only [handle2, St.q, if_true, decide_true]
    by_cases hiv : iv > 0
    · rw [if_pos hiv]; exact ⟨rfl, hq, rfl, fun h => absurd (hv'.symm.trans h) (by simp)⟩
    · rw [if_neg hiv]; exact ⟨rfl, hq, rfl, fun h => absurd (hv'.symm.trans h) (by simp)⟩
  | false =>
    have hl : listens s.conn s.status = true := by
      unfold listens
      cases hcn : s.conn with
      | disconnected => rcases hc with h | h
                        · rw [hv] at h; cases h
                        · exact absurd hcn h
      | connected => rfl
      | rejected => simp [hi.rejected hv hcn]
      | pending => simp [hi.pending hv hcn]
      | booted => exact absurd (hi.booted hv hcn) ha
    rw [if_neg (by simp), if_pos hl]
    exact ⟨rfl, hq, rfl, fun _ => rfl⟩

/-- The hypotheses are met in both versions: Rejected first, then Accepted. -/
example : ∀ v2 : Bool, let ops : List Op := [.resume false, .connected, .queue (.worker true), .recv 0 .rejected 5, .handle, .tick 5, .timer, .queue (.worker true), .recv 1 .accepted 9]
    SmoothRun (start { v2 := v2 } 0 300) (ops ++ [.handle]) ∧ (run (start { v2 := v2 } 0 300) ops).mq.fault = none ∧
    (run (start { v2 := v2 } 0 300) ops).status ≠ .accepted ∧ (run (start { v2 := v2 } 0 300) ops).handling = some (.accepted, 9) := by decide +kernel

/-! ## C128 -/

/-- What C128 needs: the timer of a registered station runs with the configured interval, and no answer Accepted with interval 0 is waiting (2.x). -/
structure Beat (v2 : Bool) (s : St) : Prop where
  ver : s.mq.cfg.v2 = v2
  hb : s.status = .accepted → s.hb = some s.hbKey
  conn : v2 = false → s.conn = .booted → s.status = .accepted
  late : v2 = false → s.status = .accepted → s.conn = .booted
  iv : v2 = true → ∀ iv, s.handling = some (.accepted, iv) → 0 < iv

theorem v2_q {s : St} (b : BaseOp) (hr : b.isRestart = false) : (s.q b).mq.cfg.v2 = s.mq.cfg.v2 := by
  unfold St.q
  cases hf : s.mq.fault with
  | some f => simp only [MQ.step, hf]; cases b <;> first | rfl | cases hr
  | none =>
    rw [step_run _ _ hf]
    have v := opView { s.mq with writes := [] } b hr
    cases v' : b with
    | regStatus a => simp only [baseStep, MQ.St.regStatus]; split <;> rfl
    | _ => subst v'; exact (op_same v (by simp)).2

theorem beat_q {v2 : Bool} {s : St} (h : Beat v2 s) (b : BaseOp) (hr : b.isRestart = false) : Beat v2 (s.q b) :=
  ⟨(v2_q b hr).trans h.ver, h.hb, h.conn, h.late, h.iv⟩

theorem beat_powerUp (q : MQ.St) (cfg : Cfg) (ign : Bool) (k : Int) : Beat cfg.v2 (powerUp q cfg ign k) := by
  unfold powerUp
  obtain ⟨r1, r2, r3, r4, r5, r6⟩ := restart_same { q with writes := [] } cfg ign
  rw [step_restart]
  generalize ({ q with writes := [] } : MQ.St).restart cfg ign = q' at *
  refine beat_q (s := { mq := q', status := first cfg.v2, hbKey := k }) ⟨congrArg Cfg.v2 r2, ?_, fun _ h => (by cases h), ?_, fun _ iv h => (by cases h)⟩ (.dispatch .boot false) rfl
  · show first cfg.v2 = .accepted → _
    unfold first
    split <;> (intro h; cases h)
  · intro hv
    show first cfg.v2 = .accepted → _
    unfold first
    split <;> (intro h; cases h)

/-- An operation that is not a restart by the application, and in 2.x not an answer Accepted without interval. -/
def Regular (v2 : Bool) (op : Op) : Prop :=
  (∀ c i, op ≠ .restart16 c i) ∧ (v2 = true → ∀ u iv, op = .recv u .accepted iv → 0 < iv)

theorem beat_step {v2 : Bool} {s : St} (h : Beat v2 s) (op : Op) (ho : Regular v2 op) : Beat v2 (step s op) := by
  cases op with
  | restart16 c i => exact absurd rfl (ho.1 c i)
  | powerCycle c i =>
    simp only [step]
    split
    · rename_i hc
      have := beat_powerUp s.mq c i s.hbKey
      rw [hc, h.ver] at this
      exact this
    · exact h
  | queue o =>
    simp only [step]
    split
    · exact h
    · split
      · rename_i hp
        exact beat_q h o (by cases o <;> first | rfl | cases hp)
      · exact h
  | recv u st iv =>
    simp only [step]
    split
    · exact h
    · unfold recv
      split
      · exact h
      · split
        · have b := beat_q h (.recvResult u) rfl
          refine ⟨b.ver, b.hb, b.conn, b.late, fun hv i hi => ?_⟩
          have hi : some (st, iv) = some (Reg.accepted, i) := hi
          injection hi with hi
          injection hi with e1 e2
          exact e2 ▸ ho.2 hv u iv (by rw [e1])
        · exact beat_q h _ rfl
  | handle =>
    simp only [step]
    split
    · exact h
    · unfold handle
      cases hh : s.handling with
      | none => exact h
      | some p =>
        obtain ⟨st, iv⟩ := p
        dsimp only
        have hv' := v2_q (s := s) (.regStatus (decide (st = Reg.accepted))) rfl
        cases hv : v2 with
        | true =>
          have hv2 : s.mq.cfg.v2 = true := h.ver.trans hv
          rw [if_pos hv2]
          unfold handle2
          dsimp only [St.q] at hv' ⊢
          cases st with
          | accepted =>
            have : iv > 0 := h.iv hv iv hh
            simp only [if_true, this]
            exact ⟨hv'.trans hv2, fun _ => rfl, fun e => (by cases e), fun e => (by cases e), fun _ _ e => (by cases e)⟩
          | pending => exact ⟨hv'.trans hv2, fun e => (by cases e), fun e => (by cases e), fun e => (by cases e), fun _ _ e => (by cases e)⟩
          | rejected => exact ⟨hv'.trans hv2, fun e => (by cases e), fun e => (by cases e), fun e => (by cases e), fun _ _ e => (by cases e)⟩
        | false =>
          have hv2 : s.mq.cfg.v2 = false := h.ver.trans hv
          rw [if_neg (by simp [hv2])]
          split
          · unfold handle16
            dsimp only [St.q] at hv' ⊢
            cases st with
            | accepted => exact ⟨hv'.trans hv2, fun _ => rfl, fun _ _ => rfl, fun _ _ => rfl, fun e => (by cases e)⟩
            | pending => exact ⟨hv'.trans hv2, fun e => (by cases e), fun _ e => (by cases e), fun _ e => (by cases e), fun e => (by cases e)⟩
            | rejected => exact ⟨hv'.trans hv2, fun e => (by cases e), fun _ e => (by cases e), fun _ e => (by cases e), fun e => (by cases e)⟩
          · subst hv
            exact ⟨h.ver, h.hb, h.conn, h.late, fun e => (by cases e)⟩
  | timer =>
    simp only [step]
    split
    · exact h
    · unfold timerFires
      split
      · split
        · exact beat_q (s := { s with timer := none }) ⟨h.ver, h.hb, h.conn, h.late, h.iv⟩ _ rfl
        · exact h
      · exact h
  | connected =>
    simp only [step]
    split
    · exact h
    · unfold connected
      split
      · rename_i hc
        refine ⟨h.ver, h.hb, fun _ e => (by cases e), fun hv e => ?_, h.iv⟩
        have := h.late hv e
        rw [hc] at this; cases this
      · exact h
  | setHeartbeat n =>
    simp only [step]
    split
    · exact h
    · unfold setHeartbeat
      split
      · rename_i hc
        refine ⟨h.ver, fun e => ?_, h.conn, h.late, h.iv⟩
        have e : s.status = .accepted := e
        simp [e] at hc
      · exact ⟨h.ver, fun _ => rfl, h.conn, h.late, h.iv⟩
  | trigger => simp only [step]; split <;> first | exact h | exact beat_q h _ rfl
  | resume d => simp only [step]; split <;> first | exact h | exact beat_q h _ rfl
  | disconnected => simp only [step]; split <;> first | exact h | exact beat_q h _ rfl
  | tick d => simp only [step]; split <;> first | exact h | exact beat_q h _ rfl

theorem beat_run {v2 : Bool} {s : St} (h : Beat v2 s) (ops : List Op) (ho : ∀ op ∈ ops, Regular v2 op) : Beat v2 (run s ops) := by
  induction ops generalizing s with
  | nil => exact h
  | cons op ops ih => exact ih (beat_step h op (ho op (by simp))) (fun o h => ho o (by simp [h]))

/-- C128, partial: whenever the station is registered, heartbeats are sent with the configured interval, if the application did not restart the station (1.6), and no
answer Accepted had the interval 0 (2.x).  Missing: these conditions; the claim is false without them. -/
theorem C128_partial (cfg : Cfg) (now hbKey : Int) (ops : List Op) (ho : ∀ op ∈ ops, Regular cfg.v2 op)
    (ha : (run (start cfg now hbKey) ops).status = .accepted) : (run (start cfg now hbKey) ops).hb = some (run (start cfg now hbKey) ops).hbKey :=
  (beat_run (beat_powerUp _ _ _ _) ops ho).hb ha

/-- The hypotheses are met: the interval given by the CSMS, then changed. -/
example : ∀ v2 : Bool, let ops : List Op := [.resume false, .connected, .queue (.worker true), .recv 0 .accepted 5, .handle, .setHeartbeat 8]
    (run (start { v2 := v2 } 0 300) ops).status = .accepted ∧ (run (start { v2 := v2 } 0 300) ops).hb = some 8 ∧
    (run (start { v2 := v2 } 0 300) (ops.take 5)).hb = some 5 := by decide +kernel
example : ∀ op ∈ ([.resume false, .connected, .queue (.worker true), .recv 0 .accepted 5, .handle, .setHeartbeat 8] : List Op), Regular true op := by
  intro op h
  simp only [List.mem_cons, List.not_mem_nil, or_false] at h
  rcases h with rfl | rfl | rfl | rfl | rfl | rfl <;> refine ⟨by simp, ?_⟩ <;> intro _ u iv e <;> cases e
  decide

/-- C128 is violated, 2.x: Accepted with interval 0 (the station chooses): no heartbeat is ever sent, although HeartbeatInterval is set. -/
theorem C128_zero_violated : ∃ ops : List Op, let s := run (start { v2 := true } 0 300) ops
    s.mq.fault = none ∧ s.status = .accepted ∧ s.hbKey = 300 ∧ s.hb = none :=
  ⟨[.resume false, .queue (.worker true), .recv 0 .accepted 0, .handle], by decide +kernel⟩

/-- C128 is violated, 1.6: the waiting time of an answer Pending or Rejected becomes the heartbeat interval, in place of the configured one. -/
theorem C128_retry_violated : ∀ st : Reg, st ≠ .accepted → ∃ ops : List Op, let s := run (start { v2 := false } 0 300) ops
    s.mq.fault = none ∧ s.status = .accepted ∧ s.hbKey = 7 ∧ s.hb = some 7 ∧
    ops = [.resume false, .connected, .queue (.worker true), .recv 0 st 7, .handle, .tick 7, .timer, .queue (.worker true), .recv 1 .accepted 0, .handle] := by
  intro st hst
  refine ⟨_, ?_, ?_, ?_, ?_, rfl⟩ <;> cases st <;> first | exact absurd rfl hst | decide +kernel

/-! ## C129 -/

/-- What C129 needs about OCPP 1.6: the two variables agree. -/
structure Agree (s : St) : Prop where
  ver : s.mq.cfg.v2 = false
  rejected : s.conn = .rejected ↔ s.status = .rejected
  booted : s.conn = .booted ↔ s.status = .accepted

theorem agree_q {s : St} (h : Agree s) (b : BaseOp) (hr : b.isRestart = false) : Agree (s.q b) :=
  ⟨(v2_q b hr).trans h.ver, h.rejected, h.booted⟩

theorem agree_powerUp (q : MQ.St) (cfg : Cfg) (ign : Bool) (k : Int) (hc : cfg.v2 = false) : Agree (powerUp q cfg ign k) := by
  have b := beat_powerUp q cfg ign k
  have e : (powerUp q cfg ign k).status = .pending := by show first cfg.v2 = _; rw [hc]; rfl
  have c : (powerUp q cfg ign k).conn = .disconnected := rfl
  exact ⟨b.ver.trans hc, by rw [e, c]; simp, by rw [e, c]; simp⟩

theorem agree_step {s : St} (h : Agree s) (op : Op) : Agree (step s op) := by
  cases op with
  | powerCycle c i =>
    simp only [step]
    split
    · rename_i hc; exact agree_powerUp _ _ _ _ (hc.trans h.ver)
    · exact h
  | queue o =>
    simp only [step]
    split
    · exact h
    · split
      · rename_i hp
        exact agree_q h o (by cases o <;> first | rfl | cases hp)
      · exact h
  | recv u st iv =>
    simp only [step]
    split
    · exact h
    · unfold recv
      split
      · exact h
      · split
        · have b := agree_q h (.recvResult u) rfl
          exact ⟨b.ver, b.rejected, b.booted⟩
        · exact agree_q h _ rfl
  | handle =>
    simp only [step]
    split
    · exact h
    · unfold handle
      cases hh : s.handling with
      | none => exact h
      | some p =>
        obtain ⟨st, iv⟩ := p
        dsimp only
        rw [if_neg (by simp [h.ver])]
        have hv' := v2_q (s := s) (.regStatus (decide (st = Reg.accepted))) rfl
        split
        · unfold handle16
          dsimp only [St.q] at hv' ⊢
          cases st <;> exact ⟨hv'.trans h.ver, by simp, by simp⟩
        · exact ⟨h.ver, h.rejected, h.booted⟩
  | timer =>
    simp only [step]
    split
    · exact h
    · unfold timerFires
      split
      · split
        · exact agree_q (s := { s with timer := none }) ⟨h.ver, h.rejected, h.booted⟩ _ rfl
        · exact h
      · exact h
  | connected =>
    simp only [step]
    split
    · exact h
    · unfold connected
      split
      · rename_i hc
        have h1 := h.rejected
        have h2 := h.booted
        rw [hc] at h1 h2
        refine ⟨h.ver, ?_, ?_⟩
        · show Conn.connected = _ ↔ _; rw [← h1]; simp
        · show Conn.connected = _ ↔ _; rw [← h2]; simp
      · exact h
  | setHeartbeat n =>
    simp only [step]
    split
    · exact h
    · unfold setHeartbeat
      split <;> exact ⟨h.ver, h.rejected, h.booted⟩
  | restart16 c i =>
    simp only [step]
    split
    · exact h
    · split
      · exact h
      · rename_i hv
        simp only [Bool.or_eq_true, not_or, Bool.not_eq_true] at hv
        unfold restart16
        obtain ⟨r1, r2, r3, r4, r5, r6⟩ := restart_same { s.mq with writes := [] } c i
        rw [step_restart]
        generalize ({ s.mq with writes := [] } : MQ.St).restart c i = q at *
        exact agree_q (s := { s with mq := { q with reg := s.status == .accepted }, timer := none, hb := none, handling := none })
          ⟨by show q.cfg.v2 = false; rw [r2]; exact hv.2, h.rejected, h.booted⟩ (.dispatch .boot false) rfl
  | trigger => simp only [step]; split <;> first | exact h | exact agree_q h _ rfl
  | resume d => simp only [step]; split <;> first | exact h | exact agree_q h _ rfl
  | disconnected => simp only [step]; split <;> first | exact h | exact agree_q h _ rfl
  | tick d => simp only [step]; split <;> first | exact h | exact agree_q h _ rfl

theorem agree_run {s : St} (h : Agree s) (ops : List Op) : Agree (run s ops) := by
  induction ops generalizing s with
  | nil => exact h
  | cons op ops ih => exact ih (agree_step h op)

/-- C129, 1.6: in every state of a station, a request of the CSMS is carried out if the station is accepted, and gets no reply if it is rejected; a transaction is
started or stopped remotely only if the station is accepted; nothing but an answer to BootNotification is carried out before the first answer. -/
theorem C129_v16 (cfg : Cfg) (now hbKey : Int) (ops : List Op) (hc : cfg.v2 = false) :
    let s := run (start cfg now hbKey) ops
    (s.status = .accepted → ∀ m, m = .call ∨ m = .remoteStart ∨ m = .remoteStop → reaction16 s.conn s.status m = .handled) ∧
    (s.status = .rejected → ∀ m, m = .call ∨ m = .remoteStart ∨ m = .remoteStop → reaction16 s.conn s.status m = .noReply) ∧
    (∀ m, m = .remoteStart ∨ m = .remoteStop → reaction16 s.conn s.status m = .handled → s.status = .accepted) ∧
    (∀ m, (s.conn = .disconnected ∨ s.conn = .connected) → reaction16 s.conn s.status m = .handled → m = .bootResponse) ∧
    (∀ m, reaction16 s.conn s.status m = .refuse → (m = .remoteStart ∨ m = .remoteStop) ∧ s.status = .pending) := by
  have h : Agree (run (start cfg now hbKey) ops) := agree_run (agree_powerUp _ _ _ _ hc) ops
  generalize run (start cfg now hbKey) ops = s at *
  obtain ⟨ver, h1, h2⟩ := h
  dsimp only
  generalize s.conn = c at *
  generalize s.status = t at *
  refine ⟨?_, ?_, ?_, ?_, ?_⟩
  · intro ht m hm
    rw [h2.2 ht]
    rcases hm with rfl | rfl | rfl <;> rfl
  · intro ht m hm
    rw [h1.2 ht, ht]
    rcases hm with rfl | rfl | rfl <;> rfl
  all_goals
    clear ver
    revert h1 h2
    cases c <;> cases t <;> simp only [reaction16] <;> intro h1 h2 m <;> cases m <;> simp_all

/-- States of each kind are reached. -/
example : ∀ st : Reg, (run (start { v2 := false } 0 300) [.resume false, .connected, .queue (.worker true), .recv 0 st 5, .handle]).status = st := by
  intro st; cases st <;> decide +kernel

/-- The messages that are no requests. -/
def results2 : List In2 := [.bootResponse, .notifyReportResponse, .response, .callError]

/-- C129, 2.x, partial: before the station is accepted no request is carried out but those that OCPP allows then; requests to start or stop a transaction are refused
while the registration is pending; every request is carried out or answered.  Missing: that only requests are answered. -/
theorem C129_v2_partial (status : Reg) (m : In2) :
    (status = .accepted → reaction2 status m = .handled) ∧
    (status = .rejected → m ∉ results2 → reaction2 status m = .handled → m = .triggerBoot) ∧
    (status = .pending → m ∉ results2 → (reaction2 status m = .handled ↔ m = .inspect ∨ m = .trigger ∨ m = .triggerBoot)) ∧
    (status = .pending → m = .startStop → reaction2 status m = .refuse) ∧
    (m ∉ results2 → reaction2 status m = .handled ∨ reaction2 status m = .refuse ∨ reaction2 status m = .error) ∧
    (m = .bootResponse → reaction2 status m = .handled) := by
  cases status <;> cases m <;> simp [reaction2, results2]

/-- C129 is violated, 2.x: a CALLERROR or CALLRESULT that arrives before the station is accepted is itself answered with a CALLERROR, for instance when the CSMS answers
the first BootNotification with a CALLERROR, or a StatusNotification that it asked for while the registration was pending. -/
theorem C129_answer_violated : (∃ ops : List Op, let s := run (start { v2 := true } 0 300) ops
      s.mq.fault = none ∧ s.mq.inFlight.map (·.kind) = some .boot ∧ reaction2 s.status .callError = .error) ∧
    (∃ ops : List Op, let s := run (start { v2 := true } 0 300) ops
      s.mq.fault = none ∧ s.mq.inFlight.map (·.kind) = some (.normal 0) ∧ reaction2 s.status .response = .error) := by
  refine ⟨⟨[.resume false, .queue (.worker true)], by decide +kernel⟩,
    ⟨[.resume false, .queue (.worker true), .recv 0 .pending 30, .handle, .queue (.dispatch (.normal 0) true), .queue (.worker true)], by decide +kernel⟩⟩

end Verif.Boot
