import Verif.MessageQueue.SizeLemmas
import Verif.MessageQueue.Theorems

/-!
# Properties C02 (network view), C06, C09–C14 of the message queue
-/

namespace Verif.MQ

/-- A decidable version of `Along` for examples. -/
def alongCheck (p : St → Op → Bool) : St → List Op → Bool
  | _, [] => true
  | s, op :: rest => p s op && alongCheck p (step s op) rest

/-- Bring the queue up: connected, BootNotification sent and accepted. Messages handed over afterwards get numbers 1, 2, … -/
def bringUp : List Op :=
  [.run (.resume false), .run (.dispatch .boot false), .run (.worker true), .run (.recvResult 0), .run (.regStatus true)]

/-! ## C02, seen from the network -/

/-- **C02.** If the callbacks of expired response timers and the handling of CALLERRORs are not delayed by other threads, then
whenever a CALL is transmitted the CALLRESULT or CALLERROR of the previous one has arrived, its response time is
over, or the station was restarted. -/
theorem C02_network_partial (cfg : Cfg) (now : Int) (ops : List Op) (hops : ∀ op ∈ ops, op.serial = true)
    (a b : List Ev) (m : Msg) (h : (run (init cfg now) ops).trace = a ++ .send m :: b) : netOpen a = none :=
  (run_JS cfg now ops hops).ok a m b h

example : (∀ op ∈ demo, op.serial = true) ∧ netOpen (run (init {} 0) demo).trace = some 2 := by decide +kernel

/-- The race: the response timer of message 1 expires, but before its callback gets the lock the answer to message 1 is
processed and message 2 is transmitted. The callback then treats message 2 as timed out, and message 2 is
transmitted again at once (retry interval 0) although its first transmission is neither answered nor timed out. -/
def timerRace : List Op :=
  bringUp ++ [.run (.dispatch .txOther false), .run (.dispatch .txOther false), .run (.worker true), .run .timerFire,
    .run (.recvResult 1), .run (.worker true), .run .runTimeout, .run .notifyFire, .run (.worker true)]

/-- **C02 is violated in the network view by a race** (and the missing part of `C02_network_partial`): a CALL is transmitted
while another one is outstanding and its response time is not over. -/
theorem C02_violated_by_race : ∃ ops a b m,
    (run (init { retryInterval := 0 } 0) ops).trace = a ++ .send m :: b ∧ netOpen a ≠ none := by
  refine ⟨timerRace, (run (init { retryInterval := 0 } 0) timerRace).trace.dropLast, [],
    ⟨3, 2, .txOther, 2, 0, false, none, false, false⟩, ?_⟩
  decide +kernel

/-! ## C06 -/

/-- **C06, size.** After every push that the queue accepts (operation `b` puts a message with a new number `i` into a queue),
in any state: at most `threshold` messages are queued, or no normal message is left and no periodic update is left
except possibly among the two newest transaction messages. -/
theorem C06_bounded (s : St) (b : BaseOp) (hb : b.isPush = true) (i : Nat) (k : Kind)
    (h : .push i k ∈ (baseStep s b).trace) (hn : .push i k ∉ s.trace) :
    let s' := baseStep s b
    s'.txq.length + s'.nq.length ≤ s.cfg.threshold ∨
      (s'.nq = [] ∧ ∀ m ∈ s'.txq.take (s'.txq.length - 2), m.kind ≠ .txUpdate) := by
  rcases push_sizes s b hb i k h hn with h | ⟨h1, h2⟩
  · exact Or.inl h
  · refine Or.inr ⟨h1, ?_⟩
    intro m hm he
    have := h2 m hm
    rw [he] at this; cases this

/-- **C06, what is evicted.** A push removes messages from the queues only by taking away normal messages or periodic updates:
every transaction message that is not a periodic update stays queued, in place. -/
theorem C06_keeps_essential (s : St) :
    (s.checkSizes.txq.filter (fun m => decide (m.kind ≠ .txUpdate))) = s.txq.filter (fun m => decide (m.kind ≠ .txUpdate)) := by
  have pass : ∀ rm (l : List Msg), (dropPass rm l).1.filter (fun m => decide (m.kind ≠ .txUpdate)) =
      l.filter (fun m => decide (m.kind ≠ .txUpdate)) := by
    intro rm l
    induction l generalizing rm with
    | nil => rfl
    | cons e rest ih =>
      unfold dropPass
      split
      · rename_i hc
        have hk : e.kind = .txUpdate := by
          simp only [Bool.and_eq_true] at hc
          cases hk : e.kind <;> simp_all [Kind.isUpdate]
        have := ih false
        simp_all
      · simp only [List.filter_cons, ih]
  have loop : ∀ n (s : St), (St.dropUpdateLoop n s).txq.filter (fun m => decide (m.kind ≠ .txUpdate)) =
      s.txq.filter (fun m => decide (m.kind ≠ .txUpdate)) := by
    intro n
    induction n with
    | zero => intro s; rfl
    | succ n ih =>
      intro s
      unfold St.dropUpdateLoop
      split
      · simp only
        split
        · rfl
        · rw [ih, (evictTx_same _ _).1]; exact pass true s.txq
      · rfl
  unfold St.checkSizes
  split
  · rfl
  · simp only
    rw [loop, (dropNormalLoop_post s.nq.length s (Nat.le_refl _)).2.1]

/-- **C06, history view.** A pending transaction-related message is evicted only if it was handed over as a periodic update. -/
theorem C06_evicts_updates_only (cfg : Cfg) (now : Int) (ops : List Op) (hops : ∀ op ∈ ops, op.isCrash = false)
    (a b : List Ev) (i : Nat)
    (h : (run (init cfg now) ops).trace = a ++ .done i .evicted :: b) (hi : i ∈ pendingTx a) : .push i .txUpdate ∈ a := by
  rcases C03_reasons cfg now ops hops a b i .evicted h hi with ⟨h, _⟩ | ⟨h, _⟩ | ⟨_, h⟩ | ⟨h, _⟩
  · cases h
  · cases h
  · exact h
  · cases h

/-- **C06, neighbours.** One eviction pass over the transaction queue keeps some messages and drops the others, and never drops
two neighbours: there is a keep/drop mark for every message with no two neighbouring drops. -/
theorem C06_no_neighbours (l : List Msg) : ∃ mask : List Bool, mask.length = l.length ∧
    (dropPass true l).1 = pick true l mask ∧ (dropPass true l).2 = pick false l mask ∧ noAdjacentFalse mask = true :=
  ⟨passMask true l, (passMask_spec true l).1, (passMask_spec true l).2.1, (passMask_spec true l).2.2.1, (passMask_spec true l).2.2.2.1⟩

/-- Six messages for a threshold of five: every second periodic update goes; a later push makes another pass. -/
example :
    let ops : List Op := bringUp ++ [.run (.dispatch .txStart false), .run (.dispatch .txUpdate false),
      .run (.dispatch .txUpdate false), .run (.dispatch .txUpdate false), .run (.dispatch .txUpdate false)]
    let s := run (init { threshold := 5 } 0) ops
    s.txq.map Msg.iid = [1, 2, 3, 4, 5] ∧
    (step s (.run (.dispatch .txOther false))).txq.map Msg.iid = [1, 3, 5, 6] ∧
    (step s (.run (.dispatch (.normal 3) false))).txq.map Msg.iid = [1, 2, 3, 4, 5] ∧
    (step s (.run (.dispatch (.normal 3) false))).nq = [] := by decide +kernel

/-! ## C09 -/

/-- **C09.** A CALLRESULT whose id is not the id of the outstanding CALL (or that comes when none is outstanding) completes,
retries and drops nothing, fulfils no future, writes nothing to the database and leaves the response timer alone. It only
lifts the hold that gives the reply to a CSMS request priority. -/
theorem C09_foreign_result (s : St) (u : Nat) (h : ∀ m, s.inFlight = some m → m.uid ≠ u) :
    baseStep s (.recvResult u) = { s with hold := none, trace := s.trace ++ [.recv u] } := by
  simp only [baseStep, St.recvResult, St.emit]
  cases hi : s.inFlight with
  | none => simp [hi]
  | some m => simp only [hi]; rw [if_pos (h m hi)]

/-- **C09.** The same for a CALLERROR. -/
theorem C09_foreign_error (s : St) (u : Nat) (h : ∀ m, s.inFlight = some m → m.uid ≠ u) :
    baseStep s (.recvError u) = { s with hold := none, trace := s.trace ++ [.recv u] } := by
  simp only [baseStep, St.recvError, St.emit]
  cases hi : s.inFlight with
  | none => simp [hi]
  | some m => simp only [hi]; rw [if_pos (h m hi)]

/-- **C09, converse.** The matching CALLRESULT completes the outstanding CALL: it is no longer outstanding, its future is
fulfilled with an online answer, and it is gone from the database. -/
theorem C09_matching_result (cfg : Cfg) (now : Int) (ops : List Op) (m : Msg) :
    let s := run (init cfg now) ops
    s.fault = none → s.inFlight = some m → m.iid ∉ s.promiseSet →
    let s' := step s (.run (.recvResult m.uid))
    s'.inFlight = none ∧ s'.fault = none ∧ s'.txq = s.txq ∧ s'.nq = s.nq ∧ (∀ r ∈ s'.dbT, r.iid ≠ m.iid) ∧
    s'.trace = s.trace ++ [.recv m.uid, .fulfil m.iid false, .answer m.uid m.iid, .done m.iid .answered] := by
  intro s hf hi hp s'
  have hS : SInv s := run_sinv _ (init_sinv cfg now) ops
  have hI : InvC s.txq s.nq s.inFlight s.dbN s.dbT s.nextId s.trace := hS.inv
  have e : s' = baseStep { s with writes := [] } (.recvResult m.uid) := by
    show step s _ = _
    unfold step; rw [if_neg (by simp [hf])]
  have e2 : s' = _ := e
  simp only [baseStep, St.recvResult, St.emit, hi, ne_eq, not_true_eq_false, if_false, St.fulfil, hp, hf, Option.isSome_none,
    Bool.false_eq_true] at e2
  have hdb : m.kind.isTx = false → ∀ r ∈ s.dbT, r.iid ≠ m.iid := by
    intro hk r hr he
    exact hI.nDisj m.iid (by simp [hi, infN, hk]) (he ▸ List.mem_map_of_mem hr)
  cases hk : m.kind.isTx
  · by_cases hc : s.cfg.checkQueue m.kind = true
    · simp only [hk, hc, Bool.false_or, if_true, Bool.false_eq_true, if_false, St.db, St.resetInFlight] at e2
      rw [e2]; refine ⟨rfl, rfl, rfl, rfl, ?_, by simp⟩
      simp only [DbWrite.onTable]; exact hdb hk
    · simp only [Bool.not_eq_true] at hc
      simp only [hk, hc, Bool.false_or, if_true, Bool.false_eq_true, if_false, St.db, St.resetInFlight] at e2
      rw [e2]; exact ⟨rfl, rfl, rfl, rfl, hdb hk, by simp⟩
  · simp only [hk, Bool.true_or, if_true, St.db, St.resetInFlight] at e2
    rw [e2]; refine ⟨rfl, rfl, rfl, rfl, ?_, by simp⟩
    intro r hr
    simp only [DbWrite.onTable, if_true] at hr
    simpa using (List.mem_filter.1 hr).2

/-- Message 1 is outstanding: an answer with id 7 is ignored, one with id 1 completes it. -/
example :
    let s := run (init {} 0) (bringUp ++ [.run (.dispatch .txOther false), .run (.worker true)])
    (s.inFlight.map Msg.uid = some 1 ∧ 1 ∉ s.promiseSet ∧ s.fault = none) ∧
    (step s (.run (.recvResult 7))).inFlight = s.inFlight ∧ (step s (.run (.recvResult 1))).inFlight = none := by
  decide +kernel

/-! ## C10 -/

/-- **C10 is violated**: a CSMS request (id 77) arrives while a CALL of the station is outstanding; the CALLRESULT of that
CALL lifts the hold, and the next CALL goes out before the reply. -/
theorem C10_violated : ∃ ops a b m,
    (run (init {} 0) ops).trace = a ++ .send m :: b ∧ unreplied a = some 77 ∧ m.uid ≠ 77 := by
  refine ⟨bringUp ++ [.run (.dispatch .txOther false), .run (.dispatch .txOther false), .run (.worker true),
    .run (.csmsCall 77), .run (.recvResult 1), .run (.worker true)],
    (run (init {} 0) (bringUp ++ [.run (.dispatch .txOther false), .run (.dispatch .txOther false), .run (.worker true),
    .run (.csmsCall 77), .run (.recvResult 1), .run (.worker true)])).trace.dropLast, [],
    ⟨2, 2, .txOther, 1, 0, false, none, false, false⟩, ?_⟩
  decide +kernel

/-- **C10, partial.** (Missing: histories in which a CALLRESULT or CALLERROR is received, or the hold is lifted by hand, between
a CSMS request and its reply; the claim is false for them.) A CALL is transmitted only when the last CSMS request has
been replied to (or the CSMS used the very id of that CALL for its request). -/
theorem C10_reply_first_partial (cfg : Cfg) (now : Int) (ops : List Op) (hops : Along quietWhileUnreplied (init cfg now) ops)
    (a b : List Ev) (m : Msg) (h : (run (init cfg now) ops).trace = a ++ .send m :: b) :
    unreplied a = none ∨ unreplied a = some m.uid :=
  (run_J10 cfg now ops hops).ok a m b h

/-- Decidable form of `quietWhileUnreplied`. -/
def quietB (s : St) : Op → Bool
  | .run (.recvResult _) | .run (.recvError _) | .run (.callError _) | .run .resetHold => decide (unreplied s.trace = none)
  | _ => true

theorem along_quiet (s : St) (ops : List Op) (h : alongCheck quietB s ops = true) : Along quietWhileUnreplied s ops := by
  induction ops generalizing s with
  | nil => trivial
  | cons op ops ih =>
    simp only [alongCheck, Bool.and_eq_true] at h
    refine ⟨?_, ih _ h.2⟩
    cases op with
    | crash => trivial
    | run b => cases b <;> simp_all [quietWhileUnreplied, quietB, BaseOp.isRecv]

/-- The next CALL waits for the reply to request 77. -/
example :
    let ops1 : List Op := bringUp ++ [.run (.dispatch .txOther false), .run (.csmsCall 77), .run (.worker true)]
    let ops2 : List Op := ops1 ++ [.run (.reply 77), .run (.worker true)]
    Along quietWhileUnreplied (init {} 0) ops2 ∧ (run (init {} 0) ops1).inFlight = none ∧
    (run (init {} 0) ops2).inFlight.map Msg.uid = some 1 := by
  refine ⟨along_quiet _ _ ?_, ?_⟩ <;> decide +kernel

/-! ## C11 -/

/-- **C11 is violated**: the response timer expires, the answer is processed before the timer's callback gets the lock, and
the callback dereferences a null pointer. -/
theorem C11_violated : ∃ ops, (run (init {} 0) ops).fault = some .nullInFlight :=
  ⟨bringUp ++ [.run (.dispatch .txOther false), .run (.worker true), .run .timerFire, .run (.recvResult 1), .run .runTimeout],
    by decide +kernel⟩

/-- **C11, partial.** (Missing: schedules in which another thread gets the lock between the expiry of the timer, or the receipt of
a CALLERROR, and its handling; the claim is false for them.) Timeout and CALLERROR handling always find an outstanding call. -/
theorem C11_no_null_partial (cfg : Cfg) (now : Int) (ops : List Op) (hops : ∀ op ∈ ops, op.serial = true) :
    (run (init cfg now) ops).fault ≠ some .nullInFlight :=
  (run_JS cfg now ops hops).alive

/-- A timeout, a CALLERROR and a late answer are handled. -/
example :
    let ops : List Op := bringUp ++ [.run (.dispatch .txOther false), .run (.worker true), .run .timeout, .run (.tick 100),
      .run .notifyFire, .run (.worker true), .run (.callError 2), .run (.recvResult 2), .run (.callError 2), .run .timeout]
    (∀ op ∈ ops, op.serial = true) ∧ (run (init {} 0) ops).fault = none ∧ (run (init {} 0) ops).txq.length = 1 := by
  decide +kernel

/-! ## C12 -/

/-- All conditions of C12 for being able to send: the process runs, is connected, no CALL outstanding, nothing held
back, and some message is allowed to be sent. -/
def canSend (s : St) : Prop :=
  s.fault = none ∧ s.running = true ∧ s.paused = false ∧ s.inFlight = none ∧ s.hold = none ∧
  ((∃ m ∈ s.nq, m.allowed s.now s.accepted = true) ∨ ∃ m ∈ s.txq.head?, m.allowed s.now s.accepted = true)

instance (s : St) : Decidable (canSend s) := by
  unfold canSend
  have : Decidable (∃ m ∈ s.txq.head?, m.allowed s.now s.accepted = true) := by
    cases s.txq.head? with
    | none => exact isFalse (by simp)
    | some m => exact decidable_of_iff (m.allowed s.now s.accepted = true) (by simp)
  exact inferInstance

/-- **C12 is violated (1)**: a transaction message handed over before the station is accepted is stalled; the worker goes to
sleep; acceptance does not wake it, so the message is sendable but the worker never looks. -/
theorem C12_violated : ∃ ops, canSend (run (init {} 0) ops) ∧
    ∀ ok, (run (init {} 0) ops).worker ok = run (init {} 0) ops := by
  refine ⟨[.run (.resume false), .run (.dispatch .txOther false), .run (.worker true), .run (.regStatus true)], ?_, ?_⟩
  · decide +kernel
  · intro ok; rfl

/-- **C12 is violated (2)**: there is one wake-up timer for all retries. A BootNotification retry is planned for time 60;
then a transaction message times out and its retry, planned for time 0, overwrites the timer. When time 60 has come nothing
wakes the worker for the BootNotification. -/
theorem C12_violated_timer : ∃ ops, canSend (run (init { retryInterval := 0 } 0) ops) ∧
    (run (init { retryInterval := 0 } 0) ops).notifyAt = none ∧
    ∀ ok, (run (init { retryInterval := 0 } 0) ops).worker ok = run (init { retryInterval := 0 } 0) ops := by
  refine ⟨bringUp ++ [.run (.dispatch .boot false), .run (.worker true), .run .timeout, .run (.dispatch .txOther false),
    .run (.worker true), .run .timeout, .run .notifyFire, .run (.worker true), .run (.recvResult 4), .run (.dispatch .txOther false),
    .run (.worker true), .run (.recvResult 5), .run (.worker true), .run (.tick 60), .run .notifyFire], ?_, ?_, ?_⟩
  · decide +kernel
  · decide +kernel
  · intro ok; rfl

/-- **C12, partial.** (Missing: messages that were stalled, and retries; the claim is false for them.) If the process runs, is
connected, has no CALL outstanding and nothing held back, and a message that was never attempted and is not waiting for
acceptance is in the normal queue or at the head of the transaction queue, then the worker's next iteration transmits. -/
theorem C12_no_lost_wakeup_partial (cfg : Cfg) (now : Int) (ops : List Op) :
    let s := run (init cfg now) ops
    s.fault = none → s.running = true → s.paused = false → s.inFlight = none → s.hold = none →
    ((∃ m ∈ s.nq, m.stall = false ∧ m.attempts = 0) ∨ ∃ m ∈ s.txq.head?, m.stall = false ∧ m.attempts = 0) →
    ∃ m, (step s (.run (.worker true))).trace = s.trace ++ [.send m] := by
  intro s hf hr hp hi hh hm
  have h := run_J12 cfg now ops
  have hfr : s.hasFresh := by
    rcases hm with ⟨m, h1, h2, h3⟩ | ⟨m, h1, h2, h3⟩
    · exact Or.inl ⟨m, h1, by simp [Msg.isFresh, h2, h3]⟩
    · exact Or.inr ⟨m, h1, by simp [Msg.isFresh, h2, h3]⟩
  have hnew := h.wake hr hfr
  have e : step s (.run (.worker true)) = ({ s with writes := [] } : St).worker true := by
    unfold step; rw [if_neg (by simp [hf])]; rfl
  rw [e]
  have hne : ¬ (s.txq = [] ∧ s.nq = []) := by
    rintro ⟨h1, h2⟩
    rcases hfr with ⟨m, hm, _⟩ | ⟨m, hm, _⟩
    · rw [h2] at hm; simp at hm
    · rw [h1] at hm; simp at hm
  have hawake : ({ s with writes := [] } : St).awake = true := by
    have : s.newMsg = true := hnew
    simp only [St.awake, hr, hp, hi, this]; rfl
  generalize hz : ({ s with writes := [] } : St) = z
  have z1 : z.txq = s.txq ∧ z.nq = s.nq ∧ z.paused = false ∧ z.inFlight = none ∧ z.hold = none ∧ z.awake = true ∧ z.trace = s.trace ∧
      z.selTx = s.selTx ∧ z.selNormal = s.selNormal := by
    rw [← hz]; exact ⟨rfl, rfl, hp, hi, hh, hawake, rfl, rfl, rfl⟩
  obtain ⟨a1, a2, a3, a4, a5, a6, a7, a8, a9⟩ := z1
  have key : ∀ q m, (z.attempt q m true).trace = s.trace ++ [.send (z.prepare m)] := by
    intro q m; rw [(attempt_sent z q m).eq, ← a7]
  unfold St.worker
  rw [if_neg (by simp [a6]), if_neg (by rw [a1, a2]; exact hne), if_neg (by simp [a3]), if_neg (by simp [a4])]
  simp only [a5, a8, a9]
  cases h1 : s.selTx with
  | some m => exact ⟨_, key _ _⟩
  | none =>
    cases h2 : s.selNormal with
    | some m => exact ⟨_, key _ _⟩
    | none => exact absurd h2 (fresh_selects h hfr h1)

/-- A fresh transaction message is waiting. -/
example :
    let s := run (init {} 0) (bringUp ++ [.run (.dispatch .txOther false)])
    s.fault = none ∧ s.running = true ∧ s.paused = false ∧ s.inFlight = none ∧ s.hold = none ∧
    s.txq.map (fun m => (m.stall, m.attempts)) = [(false, 0)] := by decide +kernel

/-! ## C13 -/

/-- The transmissions of a trace. -/
def sends (tr : List Ev) : List Msg := tr.filterMap fun
  | .send m => some m
  | _ => none

/-- **C13.** After a disconnect (`pause`) nothing is transmitted until the next connect (`resume`), whatever happens in between:
earlier resume timers may fire, also ones that were cancelled too late, and the station may be restarted. -/
theorem C13_pause_silences (cfg : Cfg) (now : Int) (ops1 ops2 : List Op)
    (h2 : ∀ op ∈ ops2, ∀ d, op ≠ .run (.resume d)) :
    sends (run (init cfg now) (ops1 ++ [.run .pause] ++ ops2)).trace = sends (run (init cfg now) (ops1 ++ [.run .pause])).trace := by
  have hS := run_sinv _ (init_sinv cfg now) (ops1 ++ [.run .pause])
  have hsplit : run (init cfg now) (ops1 ++ [.run .pause] ++ ops2) =
      run (run (init cfg now) (ops1 ++ [.run .pause])) ops2 := by simp [run, List.foldl_append]
  have hp : run (init cfg now) (ops1 ++ [.run .pause]) = step (run (init cfg now) ops1) (.run .pause) := by
    simp [run, List.foldl_append]
  have hcb := run_JCb cfg now ops1
  have hJ : JPause (run (init cfg now) (ops1 ++ [.run .pause])).trace (run (init cfg now) (ops1 ++ [.run .pause])) := by
    refine ⟨?_, [], by simp, by simp [NoSend]⟩
    rw [hp]
    by_cases hf : (run (init cfg now) ops1).fault.isSome
    · left; simp only [step, hf, if_true]; intro e; rw [e] at hf; cases hf
    · right
      simp only [step, hf, if_false, Bool.false_eq_true, baseStep, St.pause]
      exact ⟨trivial, fun c hc => Nat.lt_succ_of_le (hcb c hc)⟩
  obtain ⟨es, h3, h4⟩ := (run_JPause _ hS hJ ops2 h2).tr
  rw [hsplit, h3, sends, List.filterMap_append]
  have : es.filterMap (fun e => match e with | .send m => some m | _ => none) = [] := by
    rw [List.filterMap_eq_nil_iff]
    intro e he
    cases e with
    | send m => exact absurd rfl (h4 _ he m)
    | _ => rfl
  rw [show (es.filterMap fun x => match x with | .send m => some m | x => none) = [] from this]
  simp [sends]

/-- **C13, callbacks.** A resume callback that belongs to a connection before the disconnect does nothing, however late it
runs (until the process is restarted, which ends the callback too). -/
theorem C13_stale_callback (cfg : Cfg) (now : Int) (ops1 ops2 : List Op) (c : Nat)
    (hc : c ∈ (run (init cfg now) ops1).resumeCbs)
    (hf : (run (init cfg now) ops1).fault = none)
    (h2 : ∀ op ∈ ops2, op.isCrash = false ∧ ∀ k i, op ≠ .run (.restart k i)) :
    let s := run (init cfg now) (ops1 ++ [.run .pause] ++ ops2)
    baseStep s (.resumeFire c) = s := by
  intro s
  have hS := run_sinv _ (init_sinv cfg now) (ops1 ++ [.run .pause])
  have hs : s = run (run (init cfg now) (ops1 ++ [.run .pause])) ops2 := by simp [s, run, List.foldl_append]
  have hp : run (init cfg now) (ops1 ++ [.run .pause]) = step (run (init cfg now) ops1) (.run .pause) := by
    simp [run, List.foldl_append]
  have h0 : JStale c (run (init cfg now) (ops1 ++ [.run .pause])) := by
    rw [hp]
    simp only [step, hf, Option.isSome_none, Bool.false_eq_true, if_false, baseStep, St.pause, JStale]
    exact Nat.lt_succ_of_le (run_JCb cfg now ops1 c hc)
  have h : JStale c s := by
    rw [hs]
    refine run_state (J := JStale c) (ok := fun _ op => op.isCrash = false ∧ ∀ k i, op ≠ .run (.restart k i)) (fun _ h => h) ?_
      (fun _ _ h => h) ?_ _ hS h0 ops2 (along_of_forall h2)
    · intro s b _ _ hr _ _ h; exact JStale.op (opView s b hr) h
    · intro s p s' cfg ign op ho _ _ _ _ _ hop
      cases op with
      | run b => exact absurd (by rw [hop b rfl]) (ho.2 cfg ign)
      | crash => cases ho.1
  simp only [baseStep, St.resumeFire, St.resumeNow]
  split
  · rw [if_neg (by unfold JStale at h; omega)]
  · rfl

/-- Two connects; the second with a delay; a disconnect; then the delayed callback runs: the queue stays paused. -/
example :
    let ops : List Op := [.run (.resume false), .run .pause, .run (.dispatch .txOther false), .run (.resume true)]
    (run (init {} 0) ops).resumeCbs = [3] ∧ (step (run (init {} 0) ops) (.run (.resumeFire 3))).paused = false ∧
    (run (init {} 0) (ops ++ [.run .pause, .run (.resumeFire 3)])).paused = true := by decide +kernel

/-! ## C14 -/

/-- **C14.** A transaction id `t` is registered for the message with number `i` (id `u`) while it is queued and not outstanding.
Until the next restart every transmission of that message, also retransmissions under new ids, carries `t`, provided
the surrounding code registers only ids of existing messages, no second id for it, and not the message itself as a
MeterValues message. -/
theorem C14_registered_id (cfg : Cfg) (now : Int) (ops1 ops2 : List Op) (u i : Nat) (t : Int) :
    let s := run (init cfg now) ops1
    s.fault = none → (∀ e ∈ s.midTx, e.1 < s.nextId) → u < s.nextId → i < s.nextId →
    (∀ m ∈ s.nq ++ s.txq, m.iid = i ↔ m.uid = u) → (∀ m, s.inFlight = some m → m.iid ≠ i) →
    let s1 := step s (.run (.addStopped u t))
    Along (keepsTxId u i) s1 ops2 →
    ∃ es, (run s1 ops2).trace = s1.trace ++ es ∧ ∀ m, .send m ∈ es → m.iid = i → m.txId = some t := by
  intro s hf hk hu hi hq hin s1 hops
  have hS : SInv s := run_sinv _ (init_sinv cfg now) ops1
  have e : s1 = { s with writes := [], midTx := (u, t) :: s.midTx.filter (fun e => e.1 != u) } := by
    show step s _ = _
    unfold step; rw [if_neg (by simp [hf])]; rfl
  have hJ : J14 u i t s1.trace s1 := by
    rw [e]
    refine ⟨?_, ⟨hu, hi⟩, Or.inl ⟨by simp [List.lookup_cons], hq, hin⟩, [], by simp, by simp⟩
    intro x hx
    simp only [List.mem_cons, List.mem_filter] at hx
    rcases hx with rfl | hx
    · exact hu
    · exact hk x hx.1
  exact (run_J14 s1 (step_sinv s _ hS) hJ ops2 hops).tr

/-- **C14, other messages.** What is transmitted is a queued message; only its attempt counter is changed, and its transaction
id only if an id is registered for it. -/
theorem C14_others_unchanged (s : St) (tr : List Ev) (m1 : Msg)
    (h : (baseStep s (.worker true)).trace = s.trace ++ tr) (hm : .send m1 ∈ tr) :
    ∃ m ∈ s.nq ++ s.txq, m1 = { m with attempts := m1.attempts, txId := m1.txId } ∧
      (s.midTx.lookup m.uid = none → m1.txId = m.txId) ∧ ∀ t, s.midTx.lookup m.uid = some t → m1.txId = some t := by
  have v := opView s (.worker true) rfl
  have : ∃ q m, ((q = Q.tx ∧ s.selTx = some m) ∨ (q = Q.normal ∧ s.selTx = none ∧ s.selNormal = some m)) ∧
      (baseStep s (.worker true)).trace = s.trace ++ [.send (s.prepare m)] := by
    by_cases hc : ∃ es, (baseStep s (.worker true)).trace = s.trace ++ es ∧ NoSend es
    · obtain ⟨es, h1, h2⟩ := hc
      rw [h] at h1
      have := List.append_cancel_left h1
      subst this
      exact absurd rfl (h2 _ hm m1)
    · generalize baseStep s (.worker true) = s' at v hc
      have hn : ∀ es, s'.trace = s.trace ++ es → ¬ NoSend es := fun es h1 h2 => hc ⟨es, h1, h2⟩
      revert hn
      cases v with
      | sent q m s' h0 h1 h2 _ _ hs v => intro _; exact ⟨q, m, hs, by rw [v.eq]⟩
      | push _ hp => cases hp
      | fail _ _ _ hb => cases hb
      | result _ _ hb => cases hb
      | seen z v =>
        intro hn; obtain ⟨es, h1, h2⟩ := v.trace; exact absurd (isIn_noSend h2) (hn es h1)
      | failed m z s' hi v1 v =>
        intro _
        exact absurd (op_noSend (b := .worker true) (.failed m z s' hi v1 v) (Or.inr (Or.inl (by simp [hi])))) hc
      | csmsCall _ hb => cases hb
      | reply _ _ hb => cases hb
      | acc _ hb => cases hb
      | _ => intro hn; exact absurd (by simp [NoSend]) (hn [] (by simp))
  obtain ⟨q, m, hs, ht⟩ := this
  rw [h] at ht
  have := List.append_cancel_left ht
  subst this
  simp at hm
  subst hm
  exact ⟨m, sel_mem hs, rfl, fun h => by simp only [St.prepare, h]; simp, fun t h => by simp only [St.prepare, h]; simp⟩

/-- **C14, MeterValues.** Message `u` is registered under StartTransaction `a`. When the answer to `a` brings transaction id `t`
(no restart in between), exactly the queued messages registered under `a`, among them `u`, get id `t`; nothing else
changes in the queue. -/
theorem C14_meter_values (cfg : Cfg) (now : Int) (ops1 ops2 : List Op) (a u : Nat) (t : Int)
    (hf1 : (run (init cfg now) ops1).fault = none)
    (h2 : ∀ op ∈ ops2, beforeStart a op) :
    let s := run (step (run (init cfg now) ops1) (.run (.addMeterValueId a u))) ops2
    let s' := baseStep s (.notifyStart a t)
    ∃ l, u ∈ l ∧ s.mvMap.lookup a = some l ∧
      s'.txq = s.txq.map (fun m => if m.uid ∈ l then { m with txId := some t } else m) ∧ s'.nq = s.nq := by
  intro s s'
  have hS : SInv (run (init cfg now) ops1) := run_sinv _ (init_sinv cfg now) ops1
  have h0 : JMv a u (step (run (init cfg now) ops1) (.run (.addMeterValueId a u))) := by
    generalize run (init cfg now) ops1 = z at hf1
    unfold step; rw [if_neg (by simp [hf1])]
    simp only [baseStep, St.addMeterValueId, JMv]
    cases hl : z.mvMap.lookup a with
    | none => exact ⟨[u], by simp [List.lookup_cons], by simp⟩
    | some l => exact ⟨l ++ [u], by simp [List.lookup_cons], by simp⟩
  obtain ⟨l, h3, h4⟩ := run_JMv _ (step_sinv _ _ hS) h0 ops2 h2
  refine ⟨l, h4, h3, ?_, ?_⟩
  · show (s.notifyStart a t).txq = _
    have h3' : s.mvMap.lookup a = some l := h3
    simp only [St.notifyStart, h3', List.contains_iff_mem]
  · show (s.notifyStart a t).nq = _
    have h3' : s.mvMap.lookup a = some l := h3
    simp only [St.notifyStart, h3']

/-- A StopTransaction (number 2) queued offline behind its StartTransaction (number 1) gets id 42 when the latter is answered;
it is transmitted with that id, and again with it after a timeout. -/
example :
    let ops1 : List Op := bringUp ++ [.run (.dispatch .txStart false), .run (.dispatch .txOther false), .run (.worker true), .run (.recvResult 1)]
    let s := run (init { v2 := false } 0) ops1
    let ops2 : List Op := [.run (.worker true), .run .timeout, .run (.tick 100), .run .notifyFire, .run (.worker true)]
    (s.fault = none ∧ s.midTx = [] ∧ s.inFlight = none ∧ (s.nq ++ s.txq).map (fun m => (m.iid, m.uid)) = [(2, 2)] ∧ s.nextId = 3) ∧
    (sends (run (step s (.run (.addStopped 2 42))) ops2).trace).map (fun m => (m.iid, m.uid, m.txId)) =
      [(0, 0, none), (1, 1, none), (2, 2, some 42), (2, 3, some 42)] := by decide +kernel

end Verif.MQ
