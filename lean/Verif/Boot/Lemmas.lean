import Verif.Boot.Model
/-! Lemmas about the queue: a BootNotification stays in it. -/

namespace Verif.Boot
open Verif.MQ

/-- A BootNotification that may be sent. -/
def Free (q : MQ.St) (m : Msg) : Prop := m.kind = .boot ∧ (m.stall = false ∨ q.accepted = true)

/-- A BootNotification is in the queue or outstanding. -/
def Has (q : MQ.St) : Prop := (∃ m ∈ q.nq, Free q m) ∨ ∃ m, q.inFlight = some m ∧ Free q m

/-- What operations of the queue keep. -/
structure Keep (q q' : MQ.St) : Prop where
  running : q'.running = q.running
  v2 : q'.cfg.v2 = q.cfg.v2
  accepted : q'.accepted = q.accepted
  has : Has q → q'.fault = none → Has q'

theorem Keep.refl (q : MQ.St) : Keep q q := ⟨rfl, rfl, rfl, fun h _ => h⟩

/-- Same queues. -/
theorem keep_same {q q' : MQ.St} (h1 : q'.running = q.running) (h2 : q'.cfg.v2 = q.cfg.v2) (h3 : q'.accepted = q.accepted)
    (h4 : ∀ m ∈ q.nq, m ∈ q'.nq) (h5 : q'.inFlight = q.inFlight) : Keep q q' := by
  refine ⟨h1, h2, h3, ?_⟩
  rintro (⟨m, hm, hf⟩ | ⟨m, hm, hf⟩) _
  · exact .inl ⟨m, h4 m hm, by unfold Free; rw [h3]; exact hf⟩
  · exact .inr ⟨m, by rw [h5]; exact hm, by unfold Free; rw [h3]; exact hf⟩

theorem checkSizes_small {q : MQ.St} (h : q.txq.length + q.nq.length ≤ q.cfg.threshold) : q.checkSizes = q := by
  unfold MQ.St.checkSizes; simp [h]

/-- Pushing a message into a queue with room keeps the others, and puts it in. -/
theorem addNormal_small (q : MQ.St) (m : Msg) (h : q.txq.length + q.nq.length < q.cfg.threshold) :
    (q.addNormal m).running = q.running ∧ (q.addNormal m).cfg = q.cfg ∧ (q.addNormal m).accepted = q.accepted ∧
    (q.addNormal m).inFlight = q.inFlight ∧ (q.addNormal m).fault = q.fault ∧ (q.addNormal m).reg = q.reg ∧
    (q.addNormal m).now = q.now ∧ m ∈ (q.addNormal m).nq ∧ (∀ x ∈ q.nq, x ∈ (q.addNormal m).nq) := by
  have hn : m ∈ (if m.kind = Kind.boot then m :: q.nq else q.nq ++ [m]) := by split <;> simp
  have hx : ∀ x ∈ q.nq, x ∈ (if m.kind = Kind.boot then m :: q.nq else q.nq ++ [m]) := by intro x hx; split <;> simp [hx]
  have hl : (if m.kind = Kind.boot then m :: q.nq else q.nq ++ [m]).length = q.nq.length + 1 := by split <;> simp
  have e : ∃ z : MQ.St, q.addNormal m = ({ z with newMsg := true } : MQ.St).checkSizes ∧ z.txq = q.txq ∧ z.cfg = q.cfg ∧
      z.nq = (if m.kind = Kind.boot then m :: q.nq else q.nq ++ [m]) ∧ z.running = q.running ∧ z.accepted = q.accepted ∧
      z.inFlight = q.inFlight ∧ z.fault = q.fault ∧ z.reg = q.reg ∧ z.now = q.now := by
    unfold MQ.St.addNormal
    generalize (if m.kind = Kind.boot then m :: q.nq else q.nq ++ [m]) = l
    dsimp only
    cases hc : q.cfg.checkQueue m.kind with
    | true =>
      have hc' : (({ q with nq := l } : MQ.St).emit (.push m.iid m.kind)).cfg.checkQueue m.kind = true := hc
      simp only [hc', if_true]
      exact ⟨_, rfl, rfl, rfl, rfl, rfl, rfl, rfl, rfl, rfl, rfl⟩
    | false =>
      have hc' : (({ q with nq := l } : MQ.St).emit (.push m.iid m.kind)).cfg.checkQueue m.kind = false := hc
      simp only [hc', Bool.false_eq_true, if_false]
      exact ⟨_, rfl, rfl, rfl, rfl, rfl, rfl, rfl, rfl, rfl, rfl⟩
  obtain ⟨z, e, z1, z2, z3, z4, z5, z6, z7, z8, z9⟩ := e
  rw [e, checkSizes_small (by simp only [z1, z2, z3, hl]; omega)]
  exact ⟨z4, z2, z5, z6, z7, z8, z9, by rw [z3]; exact hn, by rw [z3]; exact hx⟩

theorem addTx_small (q : MQ.St) (m : Msg) (h : q.txq.length + q.nq.length < q.cfg.threshold) :
    (q.addTx m).running = q.running ∧ (q.addTx m).cfg = q.cfg ∧ (q.addTx m).accepted = q.accepted ∧
    (q.addTx m).inFlight = q.inFlight ∧ (q.addTx m).nq = q.nq := by
  unfold MQ.St.addTx
  dsimp only
  rw [checkSizes_small]
  · exact ⟨rfl, rfl, rfl, rfl, rfl⟩
  · simp [MQ.St.emit, MQ.St.db]; omega

theorem keep_addNormal (q : MQ.St) (m : Msg) (h : q.txq.length + q.nq.length < q.cfg.threshold) : Keep q (q.addNormal m) := by
  obtain ⟨h1, h2, h3, h4, -, -, -, -, h6⟩ := addNormal_small q m h
  exact keep_same h1 (by rw [h2]) h3 h6 h4

theorem keep_addTx (q : MQ.St) (m : Msg) (h : q.txq.length + q.nq.length < q.cfg.threshold) : Keep q (q.addTx m) := by
  obtain ⟨h1, h2, h3, h4, h5⟩ := addTx_small q m h
  exact keep_same h1 (by rw [h2]) h3 (by rw [h5]; exact fun _ h => h) h4

theorem keep_fulfil (q : MQ.St) (i : Nat) (o : Bool) : Keep q (q.fulfil i o) := by
  unfold MQ.St.fulfil
  split
  · exact keep_same rfl rfl rfl (fun _ h => h) rfl
  · exact keep_same rfl rfl rfl (fun _ h => h) rfl

theorem Keep.trans {a b c : MQ.St} (h : Keep a b) (h' : Keep b c) (hf : c.fault = none → b.fault = none) : Keep a c :=
  ⟨h'.running.trans h.running, h'.v2.trans h.v2, h'.accepted.trans h.accepted, fun x y => h'.has (h.has x (hf y)) y⟩

theorem keep_pushCall (q : MQ.St) (k : Kind) (st tr : Bool) (h : q.txq.length + q.nq.length < q.cfg.threshold) : Keep q (q.pushCall k st tr) := by
  unfold MQ.St.pushCall MQ.St.fresh
  have e : Keep q { q with nextId := q.nextId + 1 } := keep_same rfl rfl rfl (fun _ h => h) rfl
  dsimp only
  split
  · exact e
  · split
    · have := keep_addTx { q with nextId := q.nextId + 1 } { uid := q.nextId, iid := q.nextId, kind := k, attempts := 0, ts := q.now, stall := st, trig := tr } h
      exact ⟨this.running, this.v2, this.accepted, fun x => this.has x⟩
    · split
      · have := keep_addNormal { q with nextId := q.nextId + 1 } { uid := q.nextId, iid := q.nextId, kind := k, attempts := 0, ts := q.now, stall := st, trig := tr } h
        exact ⟨this.running, this.v2, this.accepted, fun x => this.has x⟩
      · exact e

theorem keep_pushCallAsync (q : MQ.St) (k : Kind) (tr : Bool) (h : q.txq.length + q.nq.length < q.cfg.threshold) : Keep q (q.pushCallAsync k tr) := by
  unfold MQ.St.pushCallAsync MQ.St.fresh
  have e : Keep q { q with nextId := q.nextId + 1 } := keep_same rfl rfl rfl (fun _ h => h) rfl
  have e2 : Keep q (({ q with nextId := q.nextId + 1 } : MQ.St).fulfil q.nextId true) := by
    have := keep_fulfil { q with nextId := q.nextId + 1 } q.nextId true
    exact ⟨this.running, this.v2, this.accepted, fun x => this.has x⟩
  dsimp only
  split
  · exact e2
  · split
    · have := keep_addTx { q with nextId := q.nextId + 1 } { uid := q.nextId, iid := q.nextId, kind := k, attempts := 0, ts := q.now, stall := false, trig := tr } h
      exact ⟨this.running, this.v2, this.accepted, fun x => this.has x⟩
    · split
      · have := keep_addNormal { q with nextId := q.nextId + 1 } { uid := q.nextId, iid := q.nextId, kind := k, attempts := 0, ts := q.now, stall := false, trig := tr } h
        exact ⟨this.running, this.v2, this.accepted, fun x => this.has x⟩
      · exact e2

/-- A BootNotification is dispatched into a queue with room. -/
theorem dispatch_boot (q : MQ.St) (t : Bool) (h : q.txq.length + q.nq.length < q.cfg.threshold) (hr : q.running = true) :
    (q.dispatch .boot t).running = true ∧ (q.dispatch .boot t).cfg = q.cfg ∧ (q.dispatch .boot t).accepted = q.accepted ∧
    (q.dispatch .boot t).fault = q.fault ∧ (q.dispatch .boot t).reg = q.reg ∧ Has (q.dispatch .boot t) := by
  unfold MQ.St.dispatch MQ.prio
  simp only [decide_true, Bool.or_true, Bool.true_or, if_true]
  unfold MQ.St.pushCall MQ.St.fresh
  have ht : ({ q with nextId := q.nextId + 1 } : MQ.St).takesNormal .boot = true := by simp [MQ.St.takesNormal]
  have hx : Kind.isTx Kind.boot = false := rfl
  have hr' : ({ q with nextId := q.nextId + 1 } : MQ.St).running = true := hr
  dsimp only at hr' ht ⊢
  rw [if_neg (by simp [hr]), if_neg (by simp [hx]), if_pos ht]
  obtain ⟨h1, h2, h3, h4, h5, h6, h7, h8, h9⟩ := addNormal_small { q with nextId := q.nextId + 1 }
    { uid := q.nextId, iid := q.nextId, kind := .boot, attempts := 0, ts := q.now, stall := false, trig := t } h
  exact ⟨h1.trans hr, h2, h3, h5, h6, .inl ⟨_, h8, rfl, .inl rfl⟩⟩

theorem keep_dispatch (q : MQ.St) (k : Kind) (t : Bool) (h : q.txq.length + q.nq.length < q.cfg.threshold) : Keep q (q.dispatch k t) := by
  unfold MQ.St.dispatch
  split
  · exact keep_pushCall q k _ _ h
  · exact keep_pushCall q k _ _ h
  · exact .refl q

theorem keep_dispatchAsync (q : MQ.St) (k : Kind) (t : Bool) (h : q.txq.length + q.nq.length < q.cfg.threshold) : Keep q (q.dispatchAsync k t) := by
  unfold MQ.St.dispatchAsync
  dsimp only
  split
  · exact keep_pushCallAsync q k _ h
  · exact .refl q

theorem fault_clearNewMsg (q : MQ.St) : q.clearNewMsg.fault = q.fault := by
  unfold MQ.St.clearNewMsg
  split <;> rfl

theorem keep_clearNewMsg (q : MQ.St) : Keep q q.clearNewMsg := by
  unfold MQ.St.clearNewMsg
  split
  · exact keep_same rfl rfl rfl (fun _ h => h) rfl
  · exact .refl q

theorem eraseP_find {p : Msg → Bool} {l : List Msg} {m : Msg} (h : l.find? p = some m) {x : Msg} (hx : x ∈ l) : x = m ∨ x ∈ l.eraseP p := by
  induction l with
  | nil => simp at h
  | cons a l ih =>
    by_cases hp : p a = true
    · simp only [List.find?_cons, hp] at h
      rw [List.eraseP_cons_of_pos hp]
      rcases List.mem_cons.mp hx with rfl | hx
      · left; exact Option.some.inj h
      · exact .inr hx
    · simp only [List.find?_cons, Bool.eq_false_iff.mpr hp] at h
      rw [List.eraseP_cons_of_neg hp]
      rcases List.mem_cons.mp hx with rfl | hx
      · exact .inr (by simp)
      · rcases ih h hx with rfl | hx
        · exact .inl rfl
        · exact .inr (List.mem_cons_of_mem _ hx)

/-- A successful transmission. -/
theorem keep_attempt (q : MQ.St) (k : Q) (m : Msg) (hi : q.inFlight = none)
    (h : k = .normal → q.selNormal = some m) : Keep q (q.attempt k m true) := by
  unfold MQ.St.attempt
  simp only [if_true]
  refine Keep.trans ?_ (keep_clearNewMsg _) ?_
  rotate_left
  · intro h; rw [fault_clearNewMsg] at h; exact h
  · refine ⟨?_, ?_, ?_, ?_⟩
    · cases k <;> rfl
    · cases k <;> rfl
    · cases k <;> rfl
    · rintro (⟨x, hx, hf⟩ | ⟨x, hx, hf⟩) _
      · cases k with
        | tx => exact .inl ⟨x, hx, hf⟩
        | normal =>
          rcases eraseP_find (h rfl) hx with rfl | h'
          · exact .inr ⟨_, rfl, hf.1, hf.2⟩
          · exact .inl ⟨x, h', hf⟩
      · rw [hi] at hx; simp at hx

theorem keep_worker (q : MQ.St) : Keep q (q.worker true) := by
  unfold MQ.St.worker
  split
  · exact .refl q
  · split
    · exact .refl q
    · split
      · exact .refl q
      · split
        · exact .refl q
        · have hi : q.inFlight = none := by simp_all
          dsimp only
          split
          · exact keep_same rfl rfl rfl (fun _ h => h) rfl
          · rename_i k m hsel
            have hk : k = .normal → q.selNormal = some m := by
              intro e
              subst e
              revert hsel
              split
              · intro hsel; simp at hsel
              · split
                · intro hsel; simp at hsel; subst hsel; assumption
                · intro hsel; simp at hsel
            split
            · split
              · exact .refl q
              · exact keep_attempt q k m hi hk
            · exact keep_attempt q k m hi hk

theorem keep_recvError (q : MQ.St) (u : Nat) : Keep q (q.recvError u) := by
  unfold MQ.St.recvError
  dsimp only
  split
  · exact keep_same rfl rfl rfl (fun _ h => h) rfl
  · split
    · exact keep_same rfl rfl rfl (fun _ h => h) rfl
    · exact keep_same rfl rfl rfl (fun _ h => h) rfl

theorem fulfil_same (q : MQ.St) (i : Nat) (o : Bool) :
    (q.fulfil i o).running = q.running ∧ (q.fulfil i o).cfg = q.cfg ∧ (q.fulfil i o).accepted = q.accepted ∧ (q.fulfil i o).nq = q.nq ∧
    (q.fulfil i o).inFlight = q.inFlight := by
  unfold MQ.St.fulfil; split <;> exact ⟨rfl, rfl, rfl, rfl, rfl⟩

theorem keep_handleFail (q : MQ.St) (o : Bool) (hq : q.cfg.queueAll = false) : Keep q (q.handleFail o) := by
  unfold MQ.St.handleFail
  have hc : ∀ k, q.cfg.checkQueue k = false := by intro k; simp [Cfg.checkQueue, hq]
  cases hi : q.inFlight with
  | none => exact ⟨rfl, rfl, rfl, fun _ h => by simp at h⟩
  | some m =>
    dsimp only
    have hc' : (q.emit (.failed m.uid m.iid)).cfg.checkQueue m.kind = false := hc _
    simp only [hc', Bool.or_false]
    by_cases ht : m.kind.isTx = true
    · have hb : m.kind ≠ .boot := by intro e; rw [e] at ht; simp [Kind.isTx] at ht
      have hh : ∀ z : MQ.St, z.running = q.running → z.cfg.v2 = q.cfg.v2 → z.accepted = q.accepted → z.nq = q.nq → Keep q z := by
        intro z h1 h2 h3 h4
        refine ⟨h1, h2, h3, ?_⟩
        rintro (⟨x, hx, hf⟩ | ⟨x, hx, hf⟩) _
        · exact .inl ⟨x, by rw [h4]; exact hx, by unfold Free; rw [h3]; exact hf⟩
        · rw [hi] at hx; cases hx; exact absurd hf.1 hb
      simp only [ht, if_true]
      obtain ⟨f1, f2, f3, f4, f5⟩ := fulfil_same (q.emit (.failed m.uid m.iid)) m.iid o
      split
      · exact hh _ rfl rfl rfl rfl
      · split
        · exact hh _ f1 (by rw [f2]; rfl) f3 f4
        · exact hh _ f1 (congrArg Cfg.v2 f2) f3 f4
    · simp only [ht, Bool.false_eq_true, if_false]
      by_cases hb : m.kind = .boot
      · simp only [hb, if_true]
        refine ⟨rfl, rfl, rfl, ?_⟩
        rintro (⟨x, hx, hf⟩ | ⟨x, hx, hf⟩) _
        · exact .inl ⟨x, List.mem_cons_of_mem _ hx, hf⟩
        · rw [hi] at hx; cases hx
          exact .inl ⟨_, List.mem_cons_self, rfl, hf.2⟩
      · simp only [hb, if_false]
        obtain ⟨f1, f2, f3, f4, f5⟩ := fulfil_same (q.emit (.failed m.uid m.iid)) m.iid o
        have hh : ∀ z : MQ.St, z.running = q.running → z.cfg.v2 = q.cfg.v2 → z.accepted = q.accepted → z.nq = q.nq → Keep q z := by
          intro z h1 h2 h3 h4
          refine ⟨h1, h2, h3, ?_⟩
          rintro (⟨x, hx, hf⟩ | ⟨x, hx, hf⟩) _
          · exact .inl ⟨x, by rw [h4]; exact hx, by unfold Free; rw [h3]; exact hf⟩
          · rw [hi] at hx; cases hx; exact absurd hf.1 hb
        split
        · exact hh _ f1 (by rw [f2]; rfl) f3 f4
        · exact hh _ f1 (congrArg Cfg.v2 f2) f3 f4

theorem keep_runTimeout (q : MQ.St) (hq : q.cfg.queueAll = false) : Keep q q.runTimeout := by
  unfold MQ.St.runTimeout
  split
  · exact .refl q
  · have := keep_handleFail { q with pendT := q.pendT - 1 } true hq
    exact ⟨this.running, this.v2, this.accepted, fun x => this.has x⟩

theorem keep_runError (q : MQ.St) (hq : q.cfg.queueAll = false) : Keep q q.runError := by
  unfold MQ.St.runError
  split
  · exact .refl q
  · have := keep_handleFail { q with pendE := q.pendE - 1 } false hq
    exact ⟨this.running, this.v2, this.accepted, fun x => this.has x⟩

theorem keep_timerFire (q : MQ.St) : Keep q q.timerFire := by
  unfold MQ.St.timerFire
  split
  · split
    · exact keep_same rfl rfl rfl (fun _ h => h) rfl
    · exact .refl q
  · exact .refl q

theorem cfg_timerFire (q : MQ.St) : q.timerFire.cfg = q.cfg ∧ q.timerFire.fault = q.fault := by
  unfold MQ.St.timerFire
  split
  · split <;> exact ⟨rfl, rfl⟩
  · exact ⟨rfl, rfl⟩

theorem cfg_recvError (q : MQ.St) (u : Nat) : (q.recvError u).cfg = q.cfg ∧ (q.recvError u).fault = q.fault := by
  unfold MQ.St.recvError
  dsimp only
  split
  · exact ⟨rfl, rfl⟩
  · split <;> exact ⟨rfl, rfl⟩

/-- Operations of the queue keep a BootNotification, except failed transmissions, as long as the queue has room and QueueAllMessages is not set. -/
theorem keep_base (q : MQ.St) (op : BaseOp) (hp : plain op = true ∨ (∃ d, op = .resume d) ∨ op = .pause ∨ ∃ d, op = .tick d) (hw : op ≠ .worker false)
    (hf : q.fault = none) (h : q.txq.length + q.nq.length < q.cfg.threshold) (hq : q.cfg.queueAll = false) : Keep q (baseStep q op) := by
  cases op with
  | push k st => exact keep_pushCall q k st false h
  | pushAsync k => exact keep_pushCallAsync q k false h
  | dispatch k t => exact keep_dispatch q k t h
  | dispatchAsync k t => exact keep_dispatchAsync q k t h
  | worker ok => cases ok with
    | true => exact keep_worker q
    | false => exact absurd rfl hw
  | recvResult u => rcases hp with hp | ⟨_, hp⟩ | hp | ⟨_, hp⟩ <;> simp [plain] at hp
  | recvError u => exact keep_recvError q u
  | runError => exact keep_runError q hq
  | timerFire => exact keep_timerFire q
  | runTimeout => exact keep_runTimeout q hq
  | timeout =>
    simp only [baseStep]
    split
    · refine Keep.trans (keep_timerFire q) (keep_runTimeout _ (by rw [(cfg_timerFire q).1]; exact hq)) ?_
      intro _; rw [(cfg_timerFire q).2]; exact hf
    · exact .refl q
  | callError u =>
    refine Keep.trans (keep_recvError q u) (keep_runError _ (by rw [(cfg_recvError q u).1]; exact hq)) ?_
    intro _; rw [(cfg_recvError q u).2]; exact hf
  | csmsCall u => exact keep_same rfl rfl rfl (fun _ h => h) rfl
  | reply u =>
    simp only [baseStep, MQ.St.reply]
    split
    · exact .refl q
    · split <;> exact keep_same rfl rfl rfl (fun _ h => h) rfl
  | resetHold => exact keep_same rfl rfl rfl (fun _ h => h) rfl
  | pause => exact keep_same rfl rfl rfl (fun _ h => h) rfl
  | resume d =>
    simp only [baseStep, MQ.St.resume, MQ.St.resumeNow]
    split
    · exact .refl q
    · split
      · exact keep_same rfl rfl rfl (fun _ h => h) rfl
      · split <;> exact keep_same rfl rfl rfl (fun _ h => h) rfl
  | resumeFire c =>
    simp only [baseStep, MQ.St.resumeFire, MQ.St.resumeNow]
    split
    · split <;> exact keep_same rfl rfl rfl (fun _ h => h) rfl
    · exact .refl q
  | regStatus a => rcases hp with hp | ⟨_, hp⟩ | hp | ⟨_, hp⟩ <;> simp [plain] at hp
  | notifyFire =>
    simp only [baseStep, MQ.St.notifyFire]
    split
    · split <;> exact keep_same rfl rfl rfl (fun _ h => h) rfl
    · exact .refl q
  | tick d => exact keep_same rfl rfl rfl (fun _ h => h) rfl
  | stop => rcases hp with hp | ⟨_, hp⟩ | hp | ⟨_, hp⟩ <;> simp [plain] at hp
  | addStopped u t => exact keep_same rfl rfl rfl (fun _ h => h) rfl
  | addMeterValueId a b =>
    simp only [baseStep, MQ.St.addMeterValueId]
    split <;> exact keep_same rfl rfl rfl (fun _ h => h) rfl
  | notifyStart a t =>
    simp only [baseStep, MQ.St.notifyStart]
    split <;> exact keep_same rfl rfl rfl (fun _ h => h) rfl
  | setAttempts n => exact keep_same rfl rfl rfl (fun _ h => h) rfl
  | setRetryInterval n => exact keep_same rfl rfl rfl (fun _ h => h) rfl
  | restart c i => rcases hp with hp | ⟨_, hp⟩ | hp | ⟨_, hp⟩ <;> simp [plain] at hp

/-- What rows that are loaded leave unchanged. -/
theorem loadRows_same (k : Q) (b : Bool) (rows : List Row) (q : MQ.St) :
    (q.loadRows k b rows).running = q.running ∧ (q.loadRows k b rows).cfg = q.cfg ∧ (q.loadRows k b rows).fault = q.fault ∧
    (q.loadRows k b rows).accepted = q.accepted ∧ (q.loadRows k b rows).reg = q.reg ∧
    (q.loadRows k b rows).txq.length + (q.loadRows k b rows).nq.length ≤ q.txq.length + q.nq.length + rows.length ∧
    (k = .normal → (q.loadRows k b rows).dbT = q.dbT) := by
  induction rows generalizing q with
  | nil => exact ⟨rfl, rfl, rfl, rfl, rfl, by simp [MQ.St.loadRows], fun _ => rfl⟩
  | cons r rest ih =>
    unfold MQ.St.loadRows
    split
    · obtain ⟨h1, h2, h3, h4, h5, h6, h7⟩ := ih ((q.db (.del k r.iid .ignored)).emit (.done r.iid .ignored))
      refine ⟨h1, h2, h3, h4, h5, ?_, ?_⟩
      · simp only [List.length_cons]
        have : ((q.db (.del k r.iid .ignored)).emit (.done r.iid .ignored)).txq.length + ((q.db (.del k r.iid .ignored)).emit (.done r.iid .ignored)).nq.length =
          q.txq.length + q.nq.length := rfl
        omega
      · intro e
        rw [h7 e]; subst e; rfl
    · cases k with
      | normal =>
        obtain ⟨h1, h2, h3, h4, h5, h6, h7⟩ := ih { q with nq := q.nq ++ [r.load] }
        refine ⟨h1, h2, h3, h4, h5, ?_, h7⟩
        simp only [List.length_cons, List.length_append, List.length_nil] at h6 ⊢
        omega
      | tx =>
        obtain ⟨h1, h2, h3, h4, h5, h6, h7⟩ := ih { q with txq := q.txq ++ [r.load] }
        refine ⟨h1, h2, h3, h4, h5, ?_, h7⟩
        simp only [List.length_cons, List.length_append, List.length_nil] at h6 ⊢
        omega

/-- A new queue. -/
theorem restart_same (q : MQ.St) (cfg : Cfg) (ign : Bool) :
    (q.restart cfg ign).running = true ∧ (q.restart cfg ign).cfg = cfg ∧ (q.restart cfg ign).fault = none ∧ (q.restart cfg ign).accepted = false ∧
    (q.restart cfg ign).reg = false ∧
    (q.restart cfg ign).txq.length + (q.restart cfg ign).nq.length ≤ q.dbN.length + q.dbT.length := by
  unfold MQ.St.restart MQ.St.load
  obtain ⟨h1, h2, h3, h4, h5, h6, h7⟩ := loadRows_same .normal ign (q.reset cfg).dbN (q.reset cfg)
  generalize hs1 : (q.reset cfg).loadRows .normal ign (q.reset cfg).dbN = s1 at *
  have hd : s1.dbT = q.dbT := h7 rfl
  have key : ∀ z : MQ.St, z.running = true → z.cfg = cfg → z.fault = none → z.accepted = false → z.reg = false → z.txq = s1.txq → z.nq = s1.nq →
      z.dbT = q.dbT →
      (let s2 := z.loadRows .tx ign z.dbT
       let s2 := if z.dbT ≠ [] then { s2 with newMsg := true } else s2
       (if !s2.cfg.queueAll then s2.db (.clear .normal) else s2).running = true ∧
       (if !s2.cfg.queueAll then s2.db (.clear .normal) else s2).cfg = cfg ∧
       (if !s2.cfg.queueAll then s2.db (.clear .normal) else s2).fault = none ∧
       (if !s2.cfg.queueAll then s2.db (.clear .normal) else s2).accepted = false ∧
       (if !s2.cfg.queueAll then s2.db (.clear .normal) else s2).reg = false ∧
       (if !s2.cfg.queueAll then s2.db (.clear .normal) else s2).txq.length + (if !s2.cfg.queueAll then s2.db (.clear .normal) else s2).nq.length ≤
         q.dbN.length + q.dbT.length) := by
    intro z z1 z2 z3 z4 z5 z6 z7 z8
    obtain ⟨g1, g2, g3, g4, g5, g6, -⟩ := loadRows_same .tx ign z.dbT z
    generalize z.loadRows .tx ign z.dbT = s2 at *
    have e : (q.reset cfg).txq.length + (q.reset cfg).nq.length + (q.reset cfg).dbN.length = q.dbN.length := by simp [MQ.St.reset]
    have hl : s2.txq.length + s2.nq.length ≤ q.dbN.length + q.dbT.length := by
      rw [z6, z7, z8] at g6; omega
    dsimp only
    split <;> split <;> exact ⟨g1.trans z1, g2.trans z2, g3.trans z3, g4.trans z4, g5.trans z5, hl⟩
  dsimp only
  by_cases hn : (q.reset cfg).dbN ≠ []
  · simp only [if_pos hn]
    exact key { s1 with newMsg := true } h1 h2 h3 h4 h5 rfl rfl hd
  · simp only [if_neg hn]
    exact key s1 h1 h2 h3 h4 h5 rfl rfl hd

end Verif.Boot
