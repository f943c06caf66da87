import Verif.Boot.Theorems2
/-!
Theorems on registration, continued.

C126: when the BootNotification is repeated, and which answers count.  C128: no heartbeats before the station is accepted.  C129: answers to BootNotification (1.6).
-/

namespace Verif.Boot
open Verif.MQ

/-! ## C126: the waiting time -/

/-- The seconds a station has to wait after an answer other than Accepted: what the CSMS asked for, or a default if it asked for nothing. -/
def Waits (v2 : Bool) (interval w : Int) : Prop :=
  (0 < interval → w = interval) ∧ (interval ≤ 0 → v2 = true → w = 30) ∧ (interval ≤ 0 → v2 = false → w = 60)

/-- Operations that neither handle an answer, nor are the expiry of the timer, nor start the station again. -/
def Op.between : Op → Bool
  | .handle | .timer | .powerCycle _ _ | .restart16 _ _ => false
  | _ => true

theorem timer_between (s : St) (op : Op) (h : op.between = true) : (step s op).timer = s.timer := by
  cases op with
  | handle => cases h
  | timer => cases h
  | powerCycle _ _ => cases h
  | restart16 _ _ => cases h
  | recv u st i =>
    simp only [step]
    split
    · rfl
    · unfold recv
      split
      · rfl
      · split <;> rfl
  | connected =>
    simp only [step]
    split
    · rfl
    · unfold connected; split <;> rfl
  | setHeartbeat n =>
    simp only [step]
    split
    · rfl
    · unfold setHeartbeat; split <;> rfl
  | queue o =>
    simp only [step]
    split
    · rfl
    · split <;> rfl
  | trigger => simp only [step]; split <;> rfl
  | resume d => simp only [step]; split <;> rfl
  | disconnected => simp only [step]; split <;> rfl
  | tick d => simp only [step]; split <;> rfl

theorem timer_betweens (s : St) (ops : List Op) (h : ∀ op ∈ ops, op.between = true) : (run s ops).timer = s.timer := by
  induction ops generalizing s with
  | nil => rfl
  | cons op ops ih =>
    show (run (step s op) ops).timer = _
    rw [ih (step s op) (fun o ho => h o (List.mem_cons_of_mem _ ho)), timer_between s op (h op (by simp))]

theorem wait_of {v2 : Bool} {interval w : Int} (h : Waits v2 interval w) : wait v2 interval = w := by
  unfold wait
  obtain ⟨h1, h2, h3⟩ := h
  split
  · rename_i hi; exact (h1 hi).symm
  · rename_i hi
    cases v2 with
    | true => simpa using (h2 (by omega) rfl).symm
    | false => simpa using (h3 (by omega) rfl).symm

theorem now_reg (q : MQ.St) (a : Bool) (hf : q.fault = none) : (MQ.step q (.run (.regStatus a))).now = q.now := by
  rw [step_run _ _ hf]
  simp only [baseStep, MQ.St.regStatus]
  split <;> rfl

theorem timer_handle {s : St} {st : Reg} {interval w : Int} (hf : s.mq.fault = none) (hh : s.handling = some (st, interval)) (hst : st ≠ .accepted)
    (hl : s.mq.cfg.v2 = true ∨ listens s.conn s.status = true) (hw : Waits s.mq.cfg.v2 interval w) :
    (step s .handle).timer = some (s.mq.now + w) := by
  have e : step s .handle = handle s := by simp [step, hf]
  rw [e]
  unfold handle
  rw [hh]
  dsimp only
  cases hv : s.mq.cfg.v2 with
  | true =>
    rw [if_pos rfl]
    rw [hv] at hw
    unfold handle2
    dsimp only
    rw [if_neg hst]
    show some ((MQ.step s.mq _).now + _) = _
    rw [now_reg _ _ hf, wait_of hw]
  | false =>
    rw [hv] at hw hl
    have hl : listens s.conn s.status = true := by rcases hl with h | h; · cases h
                                                   · exact h
    rw [if_neg (by simp), if_pos hl]
    unfold handle16
    cases st with
    | accepted => exact absurd rfl hst
    | pending =>
      show some ((MQ.step s.mq _).now + _) = _
      rw [now_reg _ _ hf, wait_of hw]
    | rejected =>
      show some ((MQ.step s.mq _).now + _) = _
      rw [now_reg _ _ hf, wait_of hw]

/-- C126: the answer Pending or Rejected to a BootNotification, with the interval `interval`, is handled at the time `s.mq.now`; then anything may happen but the handling of a
further answer or a restart.  As long as the waiting time is not over, the timer sends nothing; when it is over, a BootNotification is handed to the queue. -/
theorem C126_wait (s : St) (st : Reg) (interval w : Int) (ops : List Op) (hf : s.mq.fault = none) (hh : s.handling = some (st, interval)) (hst : st ≠ .accepted)
    (hl : s.mq.cfg.v2 = true ∨ listens s.conn s.status = true) (hw : Waits s.mq.cfg.v2 interval w) (hops : ∀ op ∈ ops, op.between = true) :
    let s' := run (step s .handle) ops
    s'.mq.fault = none →
    (s'.mq.now < s.mq.now + w → step s' .timer = s') ∧
    (s.mq.now + w ≤ s'.mq.now → (step s' .timer).mq = MQ.step s'.mq (.run (.dispatch .boot false))) := by
  intro s' hf'
  have ht : s'.timer = some (s.mq.now + w) := by
    show (run (step s .handle) ops).timer = _
    rw [timer_betweens _ _ hops, timer_handle hf hh hst hl hw]
  have e : step s' .timer = timerFires s' := by simp [step, hf']
  rw [e]
  unfold timerFires
  rw [ht]
  dsimp only
  constructor
  · intro h; rw [if_neg (by omega)]
  · intro h; rw [if_pos h]; rfl

/-- The hypotheses are met by both versions, with and without an interval of the CSMS. -/
example : ∀ v2 : Bool, ∀ iv ∈ [(0 : Int), 1, 5], let s := run (start { v2 := v2 } 0 9) [.resume false, .connected, .queue (.worker true), .recv 0 .rejected iv]
    s.mq.fault = none ∧ s.handling = some (.rejected, iv) ∧ (s.mq.cfg.v2 = true ∨ listens s.conn s.status = true) := by decide +kernel

/-! ## C126: the answers that count -/

/-- In the history `ops` the CSMS answered a BootNotification of this station with Accepted: the answer came with the id of the BootNotification, while it was outstanding. -/
def WasAccepted (s0 : St) (ops : List Op) : Prop :=
  ∃ i u iv m, ops[i]? = some (.recv u .accepted iv) ∧ (run s0 (ops.take i)).mq.inFlight = some m ∧ m.uid = u ∧ m.kind = .boot

theorem WasAccepted.snoc {s0 : St} {ops : List Op} (op : Op) (h : WasAccepted s0 ops) : WasAccepted s0 (ops ++ [op]) := by
  obtain ⟨i, u, iv, m, h1, h2, h3⟩ := h
  have hi : i < ops.length := by
    rcases Nat.lt_or_ge i ops.length with h | h
    · exact h
    · rw [List.getElem?_eq_none h] at h1; cases h1
  refine ⟨i, u, iv, m, ?_, ?_, h3⟩
  · rw [List.getElem?_append_left hi]; exact h1
  · rw [List.take_append_of_le_length (by omega)]; exact h2

/-- The station is accepted, or is about to learn it. -/
def Acc (s : St) : Prop := s.status = .accepted ∨ ∃ iv, s.handling = some (.accepted, iv)

theorem acc_step {s : St} (op : Op) (h : Acc (step s op)) :
    Acc s ∨ ∃ u iv m, op = .recv u .accepted iv ∧ s.mq.inFlight = some m ∧ m.uid = u ∧ m.kind = .boot := by
  cases op with
  | queue o =>
    left
    revert h
    simp only [step]
    split
    · exact id
    · split <;> exact id
  | trigger => left; revert h; simp only [step]; split <;> exact id
  | resume d => left; revert h; simp only [step]; split <;> exact id
  | disconnected => left; revert h; simp only [step]; split <;> exact id
  | tick d => left; revert h; simp only [step]; split <;> exact id
  | connected =>
    left; revert h; simp only [step]; split
    · exact id
    · unfold connected; split <;> exact id
  | setHeartbeat n =>
    left; revert h; simp only [step]; split
    · exact id
    · unfold setHeartbeat; split <;> exact id
  | timer =>
    left; revert h; simp only [step]; split
    · exact id
    · unfold timerFires; split
      · split <;> exact id
      · exact id
  | powerCycle cfg ign =>
    left; revert h; simp only [step]; split
    · intro h
      rcases h with h | ⟨iv, h⟩
      · have h : first cfg.v2 = .accepted := h
        unfold first at h; split at h <;> cases h
      · cases h
    · exact id
  | restart16 cfg ign =>
    left; revert h; simp only [step]; split
    · exact id
    · split
      · exact id
      · intro h
        rcases h with h | ⟨iv, h⟩
        · exact .inl h
        · cases h
  | handle =>
    left; revert h; simp only [step]; split
    · exact id
    · unfold handle
      split
      · exact id
      · rename_i st iv hh
        dsimp only
        intro h
        have key : ∀ x : St, x.status = st → x.handling = none → Acc x → Acc s := by
          intro x h1 h2 h3
          rcases h3 with h3 | ⟨iv', h3⟩
          · right; exact ⟨iv, by rw [hh, ← h1, h3]⟩
          · rw [h2] at h3; cases h3
        split at h
        · refine key _ ?_ ?_ h
          · unfold handle2; dsimp only; repeat' split
            all_goals rfl
          · unfold handle2; dsimp only; repeat' split
            all_goals rfl
        · split at h
          · refine key _ ?_ ?_ h
            · unfold handle16; dsimp only; cases st <;> rfl
            · unfold handle16; dsimp only; cases st <;> rfl
          · rcases h with h | ⟨iv', h⟩
            · exact .inl h
            · cases h
  | recv u st iv =>
    revert h; simp only [step]; split
    · exact fun h => .inl h
    · unfold recv
      split
      · exact fun h => .inl h
      · split
        · rename_i ha
          intro h
          rcases h with h | ⟨iv', h⟩
          · exact .inl (.inl h)
          · right
            have h : some (st, iv) = some (Reg.accepted, iv') := h
            cases h
            unfold awaits at ha
            split at ha
            · rename_i m hm
              simp only [Bool.and_eq_true, beq_iff_eq] at ha
              exact ⟨u, iv, m, rfl, hm, ha.1, ha.2⟩
            · cases ha
        · exact fun h => .inl h

theorem acc_run (s0 : St) (h0 : ¬ Acc s0) (ops : List Op) : Acc (run s0 ops) → WasAccepted s0 ops := by
  rw [← List.reverse_reverse ops]
  induction ops.reverse with
  | nil => exact fun h => absurd h h0
  | cons op l ih =>
    intro h
    have e : run s0 (op :: l).reverse = step (run s0 l.reverse) op := by simp [run, List.foldl_append]
    rw [e] at h
    rw [List.reverse_cons]
    rcases acc_step op h with h | ⟨u, iv, m, h1, h2, h3, h4⟩
    · exact (ih h).snoc op
    · refine ⟨l.reverse.length, u, iv, m, ?_, ?_, h3, h4⟩
      · rw [h1]; simp
      · rw [List.take_left]; exact h2

theorem start_not_acc (cfg : Cfg) (now hbKey : Int) : ¬ Acc (start cfg now hbKey) := by
  rintro (h | ⟨iv, h⟩)
  · have h : first cfg.v2 = .accepted := h
    unfold first at h; split at h <;> cases h
  · cases h

/-- C126: a station regards itself as accepted only if the CSMS answered one of its BootNotifications with Accepted. -/
theorem C126_accepted_only (cfg : Cfg) (now hbKey : Int) (ops : List Op) (h : (run (start cfg now hbKey) ops).status = .accepted) :
    WasAccepted (start cfg now hbKey) ops := acc_run _ (start_not_acc cfg now hbKey) ops (.inl h)

/-- The hypothesis is met in both versions. -/
example : ∀ v2 : Bool, (run (start { v2 := v2 } 0 9) [.resume false, .connected, .queue (.worker true), .recv 0 .accepted 5, .handle]).status = .accepted := by
  decide +kernel

/-- Other answers do not count: here one with the id of no message, and one to another message than BootNotification. -/
example : ∀ v2 : Bool, (run (start { v2 := v2 } 0 9) [.resume false, .connected, .queue (.worker true), .recv 7 .accepted 5, .handle]).status ≠ .accepted ∧
    (run (start { v2 := v2 } 0 9) [.resume false, .connected, .queue (.worker true), .recv 0 .pending 5, .handle, .queue (.dispatch (.normal 0) true), .queue (.worker true),
      .recv 1 .accepted 5, .handle]).status = .pending := by decide +kernel

/-! ## C128: no heartbeats before the station is accepted (2.x) -/

theorem v2_q2 {s : St} (b : BaseOp) (hr : b.isRestart = false) (h : s.mq.cfg.v2 = true) : (s.q b).mq.cfg.v2 = true := (v2_q b hr).trans h

theorem v2_step {s : St} (op : Op) (h : s.mq.cfg.v2 = true) : (step s op).mq.cfg.v2 = true := by
  cases op with
  | restart16 c i =>
    simp only [step]
    split
    · exact h
    · simp [h]
  | powerCycle c i =>
    simp only [step]
    split
    · rename_i hc
      exact (beat_powerUp s.mq c i s.hbKey).ver.trans (hc.trans h)
    · exact h
  | queue o =>
    simp only [step]
    split
    · exact h
    · split
      · rename_i hp
        exact v2_q2 o (by cases o <;> first | rfl | cases hp) h
      · exact h
  | recv u st iv =>
    simp only [step, recv]
    (repeat' split) <;> first | exact h | exact (v2_q (s := s) (.recvResult u) rfl).trans h
  | handle =>
    simp only [step]
    split
    · exact h
    · unfold handle
      split
      · exact h
      · rename_i st iv _
        dsimp only
        rw [if_pos h]
        have hv' := (v2_q (s := s) (.regStatus (decide (st = Reg.accepted))) rfl).trans h
        unfold handle2
        dsimp only [St.q] at hv' ⊢
        (repeat' split) <;> exact hv'
  | timer =>
    simp only [step, timerFires]
    (repeat' split) <;> first | exact h | exact (v2_q (s := s) (.dispatch .boot false) rfl).trans h
  | connected => simp only [step, connected]; (repeat' split) <;> exact h
  | setHeartbeat n => simp only [step, setHeartbeat]; (repeat' split) <;> exact h
  | trigger => simp only [step]; split <;> first | exact h | exact v2_q2 _ rfl h
  | resume d => simp only [step]; split <;> first | exact h | exact v2_q2 _ rfl h
  | disconnected => simp only [step]; split <;> first | exact h | exact v2_q2 _ rfl h
  | tick d => simp only [step]; split <;> first | exact h | exact v2_q2 _ rfl h

theorem hb_acc {s : St} (op : Op) (hv : s.mq.cfg.v2 = true) (h : (step s op).hb.isSome = true) : s.hb.isSome = true ∨ Acc s := by
  cases op with
  | restart16 c i =>
    revert h; simp only [step]; split
    · exact .inl
    · simp only [hv, Bool.true_or, if_true]; exact .inl
  | powerCycle c i =>
    revert h; simp only [step]; split
    · intro h; cases h
    · exact .inl
  | queue o => left; revert h; simp only [step]; (repeat' split) <;> exact id
  | recv u st iv => left; revert h; simp only [step, recv]; (repeat' split) <;> exact id
  | handle =>
    revert h; simp only [step]; split
    · exact .inl
    · unfold handle
      split
      · exact .inl
      · rename_i st iv hh
        dsimp only
        rw [if_pos hv]
        unfold handle2
        dsimp only
        split
        · rename_i e
          intro _
          exact .inr (.inr ⟨iv, by rw [hh, e]⟩)
        · exact .inl
  | timer => left; revert h; simp only [step, timerFires]; (repeat' split) <;> exact id
  | connected => left; revert h; simp only [step, connected]; (repeat' split) <;> exact id
  | setHeartbeat n =>
    revert h; simp only [step]; split
    · exact .inl
    · unfold setHeartbeat
      split
      · exact .inl
      · rename_i hc
        intro _
        right; left
        simpa [hv] using hc
  | trigger => left; revert h; simp only [step]; split <;> exact id
  | resume d => left; revert h; simp only [step]; split <;> exact id
  | disconnected => left; revert h; simp only [step]; split <;> exact id
  | tick d => left; revert h; simp only [step]; split <;> exact id

/-- C128, 2.x: no heartbeats are sent before the CSMS has answered a BootNotification with Accepted, whatever interval is set. -/
theorem C128_before (cfg : Cfg) (now hbKey : Int) (ops : List Op) (hc : cfg.v2 = true) (h : (run (start cfg now hbKey) ops).hb.isSome = true) :
    WasAccepted (start cfg now hbKey) ops := by
  have key : ∀ ops : List Op, (run (start cfg now hbKey) ops).mq.cfg.v2 = true ∧
      ((run (start cfg now hbKey) ops).hb.isSome = true → WasAccepted (start cfg now hbKey) ops) := by
    intro ops
    rw [← List.reverse_reverse ops]
    induction ops.reverse with
    | nil => exact ⟨(beat_powerUp _ _ _ _).ver.trans hc, fun h => by cases h⟩
    | cons op l ih =>
      have e : run (start cfg now hbKey) (op :: l).reverse = step (run (start cfg now hbKey) l.reverse) op := by simp [run, List.foldl_append]
      rw [e]
      refine ⟨v2_step op ih.1, fun h => ?_⟩
      rw [List.reverse_cons]
      rcases hb_acc op ih.1 h with h | h
      · exact (ih.2 h).snoc op
      · exact (acc_run _ (start_not_acc cfg now hbKey) _ h).snoc op
  exact (key ops).2 h

/-- The hypothesis is met after an answer Accepted, and is not met by setting the interval before. -/
example : (run (start { v2 := true } 0 9) [.resume false, .queue (.worker true), .recv 0 .accepted 5, .handle]).hb.isSome = true ∧
    (run (start { v2 := true } 0 9) [.resume false, .queue (.worker true), .recv 0 .pending 5, .handle, .setHeartbeat 7]).hb = none := by decide +kernel

/-- C128 is violated, 1.6: setting HeartbeatInterval while the registration is pending starts the heartbeats, although no BootNotification was accepted.  (The dispatcher
then discards the Heartbeat messages: C08.) -/
theorem C128_early_violated : ∃ ops : List Op, (run (start { v2 := false } 0 9) ops).hb = some 7 ∧ ¬ WasAccepted (start { v2 := false } 0 9) ops := by
  refine ⟨[.resume false, .connected, .queue (.worker true), .recv 0 .pending 5, .handle, .setHeartbeat 7], by decide +kernel, ?_⟩
  rintro ⟨i, u, iv, m, h, _⟩
  have := List.mem_of_getElem? h
  simp at this

/-! ## C129: answers to BootNotification (1.6) -/

/-- C129, 1.6: an answer to BootNotification is looked at exactly if the station is connected and not registered.  So a station that is registered never gives that up because of
an answer to a further BootNotification (one that the CSMS asked for). -/
theorem C129_boot_answer (cfg : Cfg) (now hbKey : Int) (ops : List Op) (hc : cfg.v2 = false) :
    let s := run (start cfg now hbKey) ops
    reaction16 s.conn s.status .bootResponse = .handled ↔ s.conn ≠ .disconnected ∧ s.status ≠ .accepted := by
  have h : Agree (run (start cfg now hbKey) ops) := by
    have key : ∀ (ops : List Op) (s : St), Agree s → Agree (run s ops) := by
      intro ops
      induction ops with
      | nil => exact fun _ h => h
      | cons op ops ih => exact fun s h => ih _ (agree_step h op)
    exact key ops _ (agree_powerUp _ _ _ _ hc)
  dsimp only
  generalize run (start cfg now hbKey) ops = s at *
  obtain ⟨_, h1, h2⟩ := h
  cases hcn : s.conn <;> cases hst : s.status <;> rw [hcn, hst] at h1 h2 <;> simp_all [reaction16]

/-- Both sides are met: before and after the registration. -/
example : let s := run (start { v2 := false } 0 9) [.resume false, .connected]
    let s' := run s [.queue (.worker true), .recv 0 .accepted 5, .handle]
    reaction16 s.conn s.status .bootResponse = .handled ∧ s'.status = .accepted ∧ reaction16 s'.conn s'.status .bootResponse = .nothing := by decide +kernel

end Verif.Boot
