import Verif.Boot.Lemmas
/-!
Theorems on registration.

C126: a station that is not accepted tries again: a BootNotification is in the queue or outstanding, or its answer is being handled, or the timer for the next one
runs.  False of the code in several ways.
-/

namespace Verif.Boot
open Verif.MQ

/-- The states of a station. -/
def Reachable (s : St) : Prop := ∃ cfg now hbKey ops, s = run (start cfg now hbKey) ops

/-- The station will try to register: a BootNotification that may be sent is in the queue, or one is outstanding, or an answer is being handled, or the timer for the
next one runs. -/
def Trying (s : St) : Prop :=
  (∃ m ∈ s.mq.nq, m.kind = .boot ∧ (m.stall = false ∨ s.mq.accepted = true)) ∨ (∃ m, s.mq.inFlight = some m ∧ m.kind = .boot) ∨
  s.handling.isSome ∨ s.timer.isSome

/-- A step in which no transmission fails, the queue has room, QueueAllMessages is not set, and an answer is handled only after the connection was noticed. -/
def Smooth (s : St) (op : Op) : Prop :=
  (∀ o, op = .queue o → o ≠ .worker false) ∧
  s.mq.cfg.queueAll = false ∧ s.mq.txq.length + s.mq.nq.length < s.mq.cfg.threshold ∧
  (op = .handle → s.mq.cfg.v2 = true ∨ s.conn ≠ .disconnected) ∧
  (∀ cfg ign, op = .powerCycle cfg ign ∨ op = .restart16 cfg ign → s.mq.dbN.length + s.mq.dbT.length < cfg.threshold)

/-- A history of such steps. -/
def SmoothRun : St → List Op → Prop
  | _, [] => True
  | s, op :: ops => Smooth s op ∧ SmoothRun (step s op) ops

/-- The invariant. -/
structure Inv (s : St) : Prop where
  running : s.mq.fault = none → s.mq.running = true
  rejected : s.mq.cfg.v2 = false → s.conn = .rejected → s.status = .rejected
  pending : s.mq.cfg.v2 = false → s.conn = .pending → s.status = .pending
  booted : s.mq.cfg.v2 = false → s.conn = .booted → s.status = .accepted
  trying : s.mq.fault = none → s.status ≠ .accepted → Has s.mq ∨ s.handling.isSome ∨ s.timer.isSome

theorem step_run (q : MQ.St) (op : BaseOp) (hf : q.fault = none) : MQ.step q (.run op) = baseStep { q with writes := [] } op := by
  simp [MQ.step, hf]

theorem q_keep {s : St} (op : BaseOp) (hp : plain op = true ∨ (∃ d, op = .resume d) ∨ op = .pause ∨ ∃ d, op = .tick d) (hw : op ≠ .worker false)
    (hf : s.mq.fault = none) (h : s.mq.txq.length + s.mq.nq.length < s.mq.cfg.threshold) (hq : s.mq.cfg.queueAll = false) : Keep s.mq (s.q op).mq := by
  have := keep_base { s.mq with writes := [] } op hp hw hf h hq
  unfold St.q
  rw [step_run _ _ hf]
  exact ⟨this.running, this.v2, this.accepted, fun x => this.has x⟩

theorem inv_q {s : St} (hi : Inv s) (op : BaseOp) (hp : plain op = true ∨ (∃ d, op = .resume d) ∨ op = .pause ∨ ∃ d, op = .tick d) (hw : op ≠ .worker false)
    (hf : s.mq.fault = none) (h : s.mq.txq.length + s.mq.nq.length < s.mq.cfg.threshold) (hq : s.mq.cfg.queueAll = false) : Inv (s.q op) := by
  have k := q_keep op hp hw hf h hq
  refine ⟨fun _ => by rw [k.running]; exact hi.running hf, by rw [k.v2]; exact hi.rejected, by rw [k.v2]; exact hi.pending, by rw [k.v2]; exact hi.booted, ?_⟩
  intro f hs
  rcases hi.trying hf hs with h | h | h
  · exact .inl (k.has h f)
  · exact .inr (.inl h)
  · exact .inr (.inr h)

/-- Sending a BootNotification establishes the invariant. -/
theorem inv_boot {s : St} (t : Bool) (hf : s.mq.fault = none) (h : s.mq.txq.length + s.mq.nq.length < s.mq.cfg.threshold) (hr : s.mq.running = true)
    (h1 : s.mq.cfg.v2 = false → s.conn = .rejected → s.status = .rejected) (h2 : s.mq.cfg.v2 = false → s.conn = .pending → s.status = .pending)
    (h3 : s.mq.cfg.v2 = false → s.conn = .booted → s.status = .accepted) : Inv (s.boot t) := by
  unfold St.boot St.q
  rw [step_run _ _ hf]
  obtain ⟨d1, d2, d3, d4, d5, d6⟩ := dispatch_boot { s.mq with writes := [] } t h hr
  exact ⟨fun _ => d1, fun e => h1 (by rw [← e]; exact congrArg Cfg.v2 d2.symm), fun e => h2 (by rw [← e]; exact congrArg Cfg.v2 d2.symm),
    fun e => h3 (by rw [← e]; exact congrArg Cfg.v2 d2.symm), fun _ _ => .inl d6⟩

theorem step_restart (q : MQ.St) (cfg : Cfg) (ign : Bool) : MQ.step q (.run (.restart cfg ign)) = ({ q with writes := [] } : MQ.St).restart cfg ign := by
  unfold MQ.step
  cases hf : q.fault <;> simp [baseStep]

theorem inv_powerUp (q : MQ.St) (cfg : Cfg) (ign : Bool) (k : Int) (h : q.dbN.length + q.dbT.length < cfg.threshold) : Inv (powerUp q cfg ign k) := by
  unfold powerUp
  obtain ⟨r1, r2, r3, r4, r5, r6⟩ := restart_same { q with writes := [] } cfg ign
  rw [step_restart]
  refine inv_boot false r3 ?_ r1 ?_ ?_ ?_
  · show (({ q with writes := [] } : MQ.St).restart cfg ign).txq.length + (({ q with writes := [] } : MQ.St).restart cfg ign).nq.length < _
    rw [r2]
    dsimp only at r6
    omega
  all_goals (intro _ hc; simp at hc)

theorem regStatus_same (q : MQ.St) (a : Bool) (hf : q.fault = none) :
    (MQ.step q (.run (.regStatus a))).running = q.running ∧ (MQ.step q (.run (.regStatus a))).fault = none ∧
    (MQ.step q (.run (.regStatus a))).now = q.now ∧ (MQ.step q (.run (.regStatus a))).cfg = q.cfg := by
  rw [step_run _ _ hf]
  unfold baseStep MQ.St.regStatus
  cases a <;> exact ⟨rfl, hf, rfl, rfl⟩

theorem inv_handle {s : St} (hi : Inv s) (hf : s.mq.fault = none) (hs : s.mq.cfg.v2 = true ∨ s.conn ≠ .disconnected) : Inv (handle s) := by
  unfold handle
  cases hh : s.handling with
  | none => exact hi
  | some p =>
    obtain ⟨st, iv⟩ := p
    obtain ⟨g1, g2, g3, g4⟩ := regStatus_same s.mq (decide (st = Reg.accepted)) hf
    have hr := g1.trans (hi.running hf)
    dsimp only
    cases hv : s.mq.cfg.v2 with
    | true =>
      have hv' : (MQ.step s.mq (.run (.regStatus (decide (st = Reg.accepted))))).cfg.v2 = true := by rw [g4]; exact hv
      have no : ∀ {P : Prop}, (MQ.step s.mq (.run (.regStatus (decide (st = Reg.accepted))))).cfg.v2 = false → P := by
        intro P e; rw [hv'] at e; exact absurd e (by simp)
      simp only [if_true]
      unfold handle2
      dsimp only [St.q]
      split
      · rename_i e
        split <;> exact ⟨fun _ => hr, no, no, no, fun _ h => absurd e h⟩
      · exact ⟨fun _ => hr, no, no, no, fun _ _ => .inr (.inr rfl)⟩
    | false =>
      simp only [Bool.false_eq_true, if_false]
      have hl : s.status ≠ .accepted → listens s.conn s.status = true := by
        intro hne
        unfold listens
        cases hc : s.conn with
        | disconnected => rcases hs with h | h
                          · rw [hv] at h; simp at h
                          · exact absurd hc h
        | connected => rfl
        | rejected => simp [hi.rejected hv hc]
        | pending => simp [hi.pending hv hc]
        | booted => exact absurd (hi.booted hv hc) hne
      split
      · unfold handle16
        dsimp only [St.q]
        cases st with
        | accepted => exact ⟨fun _ => hr, fun _ h => by simp at h, fun _ h => by simp at h, fun _ _ => rfl, fun _ h => absurd rfl h⟩
        | pending => exact ⟨fun _ => hr, fun _ h => by simp at h, fun _ _ => rfl, fun _ h => by simp at h, fun _ _ => .inr (.inr rfl)⟩
        | rejected => exact ⟨fun _ => hr, fun _ _ => rfl, fun _ h => by simp at h, fun _ h => by simp at h, fun _ _ => .inr (.inr rfl)⟩
      · rename_i hn
        refine ⟨hi.running, hi.rejected, hi.pending, hi.booted, ?_⟩
        intro _ hne
        exact absurd (hl hne) hn

theorem recvResult_same (q : MQ.St) (u : Nat) :
    (q.recvResult u).running = q.running ∧ (q.recvResult u).cfg = q.cfg ∧ (q.recvResult u).accepted = q.accepted ∧ (q.recvResult u).nq = q.nq ∧
    ((q.recvResult u).inFlight = q.inFlight ∨ ∃ m, q.inFlight = some m ∧ m.uid = u) := by
  unfold MQ.St.recvResult
  generalize hq : ({ q with hold := none } : MQ.St).emit (.recv u) = q0
  have e1 : q0.running = q.running := by subst hq; rfl
  have e2 : q0.cfg = q.cfg := by subst hq; rfl
  have e3 : q0.accepted = q.accepted := by subst hq; rfl
  have e4 : q0.nq = q.nq := by subst hq; rfl
  have e5 : q0.inFlight = q.inFlight := by subst hq; rfl
  dsimp only
  rw [← e1, ← e2, ← e3, ← e4, ← e5]
  cases hi : q0.inFlight with
  | none => exact ⟨rfl, rfl, rfl, rfl, .inl hi⟩
  | some m =>
    dsimp only
    by_cases hu : m.uid = u
    · rw [if_neg (by simp [hu])]
      obtain ⟨f1, f2, f3, f4, f5⟩ := fulfil_same q0 m.iid false
      generalize q0.fulfil m.iid false = q1 at *
      have hh : ∀ z : MQ.St, z.running = q1.running → z.cfg = q1.cfg → z.accepted = q1.accepted → z.nq = q1.nq →
          (z.running = q0.running ∧ z.cfg = q0.cfg ∧ z.accepted = q0.accepted ∧ z.nq = q0.nq ∧ (z.inFlight = some m ∨ ∃ m', some m = some m' ∧ m'.uid = u)) :=
        fun z g1 g2 g3 g4 => ⟨g1.trans f1, g2.trans f2, g3.trans f3, g4.trans f4, .inr ⟨m, rfl, hu⟩⟩
      split
      · exact hh _ rfl rfl rfl rfl
      · split <;> exact hh _ rfl rfl rfl rfl
    · rw [if_pos hu]
      exact ⟨rfl, rfl, rfl, rfl, .inl hi⟩

theorem inv_recv {s : St} (hi : Inv s) (hf : s.mq.fault = none) (u : Nat) (st : Reg) (iv : Int) : Inv (recv s u st iv) := by
  have frame : (MQ.step s.mq (.run (.recvResult u))).running = s.mq.running ∧ (MQ.step s.mq (.run (.recvResult u))).cfg = s.mq.cfg ∧
      (MQ.step s.mq (.run (.recvResult u))).accepted = s.mq.accepted ∧ (MQ.step s.mq (.run (.recvResult u))).nq = s.mq.nq ∧
      ((MQ.step s.mq (.run (.recvResult u))).inFlight = s.mq.inFlight ∨ ∃ m, s.mq.inFlight = some m ∧ m.uid = u) := by
    rw [step_run s.mq (.recvResult u) hf]
    exact recvResult_same { s.mq with writes := [] } u
  obtain ⟨f1, f2, f3, f4, f5⟩ := frame
  unfold recv
  split
  · exact hi
  · split
    · refine ⟨fun _ => f1.trans (hi.running hf), ?_, ?_, ?_, fun _ _ => .inr (.inl rfl)⟩ <;>
        (dsimp only [St.q]; rw [f2])
      · exact hi.rejected
      · exact hi.pending
      · exact hi.booted
    · rename_i ha
      refine ⟨fun _ => f1.trans (hi.running hf), ?_, ?_, ?_, ?_⟩
      · dsimp only [St.q]; rw [f2]; exact hi.rejected
      · dsimp only [St.q]; rw [f2]; exact hi.pending
      · dsimp only [St.q]; rw [f2]; exact hi.booted
      · intro _ hne
        rcases hi.trying hf hne with h | h
        · left
          dsimp only [St.q]
          rcases h with ⟨m, hm, hfr⟩ | ⟨m, hm, hfr⟩
          · exact .inl ⟨m, by rw [f4]; exact hm, by unfold Free; rw [f3]; exact hfr⟩
          · right
            rcases f5 with f5 | ⟨m', hm', hu⟩
            · exact ⟨m, by rw [f5]; exact hm, by unfold Free; rw [f3]; exact hfr⟩
            · rw [hm] at hm'; cases hm'
              exact absurd (by simp [awaits, hm, hu, hfr.1]) ha
        · exact .inr h

theorem inv_step {s : St} (hi : Inv s) (op : Op) (h : Smooth s op) : Inv (step s op) := by
  obtain ⟨hw, hq, hsz, hh, hdb⟩ := h
  cases op with
  | powerCycle cfg ign =>
    simp only [step]
    split
    · exact inv_powerUp _ _ _ _ (hdb cfg ign (.inl rfl))
    · exact hi
  | queue o =>
    simp only [step]
    split
    · exact hi
    · rename_i hf
      have hf : s.mq.fault = none := by simpa using hf
      split
      · rename_i hp
        exact inv_q hi o (.inl hp) (hw o rfl) hf hsz hq
      · exact hi
  | recv u st iv =>
    simp only [step]
    split
    · exact hi
    · rename_i hf
      exact inv_recv hi (by simpa using hf) u st iv
  | handle =>
    simp only [step]
    split
    · exact hi
    · rename_i hf
      exact inv_handle hi (by simpa using hf) (hh rfl)
  | timer =>
    simp only [step]
    split
    · exact hi
    · rename_i hf
      have hf : s.mq.fault = none := by simpa using hf
      unfold timerFires
      split
      · split
        · exact inv_boot false hf hsz (hi.running hf) hi.rejected hi.pending hi.booted
        · exact hi
      · exact hi
  | trigger =>
    simp only [step]
    split
    · exact hi
    · rename_i hf
      have hf : s.mq.fault = none := by simpa using hf
      exact inv_boot true hf hsz (hi.running hf) hi.rejected hi.pending hi.booted
  | resume d =>
    simp only [step]
    split
    · exact hi
    · rename_i hf
      exact inv_q hi _ (.inr (.inl ⟨d, rfl⟩)) (by simp) (by simpa using hf) hsz hq
  | connected =>
    simp only [step]
    split
    · exact hi
    · unfold connected
      split
      · exact ⟨hi.running, fun _ h => by simp at h, fun _ h => by simp at h, fun _ h => by simp at h, hi.trying⟩
      · exact hi
  | disconnected =>
    simp only [step]
    split
    · exact hi
    · rename_i hf
      exact inv_q hi _ (.inr (.inr (.inl rfl))) (by simp) (by simpa using hf) hsz hq
  | tick d =>
    simp only [step]
    split
    · exact hi
    · rename_i hf
      exact inv_q hi _ (.inr (.inr (.inr ⟨d, rfl⟩))) (by simp) (by simpa using hf) hsz hq
  | setHeartbeat n =>
    simp only [step]
    split
    · exact hi
    · unfold setHeartbeat
      split <;> exact ⟨hi.running, hi.rejected, hi.pending, hi.booted, hi.trying⟩
  | restart16 cfg ign =>
    simp only [step]
    split
    · exact hi
    · split
      · exact hi
      · rename_i hv
        simp only [Bool.or_eq_true, not_or, Bool.not_eq_true] at hv
        unfold restart16
        obtain ⟨r1, r2, r3, r4, r5, r6⟩ := restart_same { s.mq with writes := [] } cfg ign
        rw [step_restart]
        have := hdb cfg ign (.inr rfl)
        refine inv_boot false r3 ?_ r1 (fun _ => hi.rejected hv.1) (fun _ => hi.pending hv.1) (fun _ => hi.booted hv.1)
        show (({ s.mq with writes := [] } : MQ.St).restart cfg ign).txq.length + (({ s.mq with writes := [] } : MQ.St).restart cfg ign).nq.length < _
        have r6' : (({ s.mq with writes := [] } : MQ.St).restart cfg ign).txq.length + (({ s.mq with writes := [] } : MQ.St).restart cfg ign).nq.length
            ≤ s.mq.dbN.length + s.mq.dbT.length := r6
        show _ < (({ s.mq with writes := [] } : MQ.St).restart cfg ign).cfg.threshold
        rw [r2]
        omega

theorem inv_run {s : St} (hi : Inv s) (ops : List Op) (h : SmoothRun s ops) : Inv (run s ops) := by
  induction ops generalizing s with
  | nil => exact hi
  | cons op ops ih => exact ih (inv_step hi op h.1) h.2

/-- C126, partial: a station that is not accepted tries again, if no transmission fails, the queue never is full, QueueAllMessages is not set and the
connection is noticed before the answer to BootNotification arrives.  Missing: these conditions; the claim is false without any of them (see below). -/
theorem C126_partial (cfg : Cfg) (now hbKey : Int) (ops : List Op) (ht : 0 < cfg.threshold) (hs : SmoothRun (start cfg now hbKey) ops)
    (hf : (run (start cfg now hbKey) ops).mq.fault = none) (ha : (run (start cfg now hbKey) ops).status ≠ .accepted) :
    Trying (run (start cfg now hbKey) ops) := by
  have hi : Inv (run (start cfg now hbKey) ops) := inv_run (inv_powerUp _ _ _ _ (by simpa [MQ.init] using ht)) ops hs
  rcases hi.trying hf ha with (⟨m, hm, h⟩ | ⟨m, hm, h⟩) | h | h
  · exact .inl ⟨m, hm, h⟩
  · exact .inr (.inl ⟨m, hm, h.1⟩)
  · exact .inr (.inr (.inl h))
  · exact .inr (.inr (.inr h))

end Verif.Boot
