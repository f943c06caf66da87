/-!
# Model of `ocpp::MessageQueue` (include/ocpp/common/message_queue.hpp)

The class is modelled as a transition system `step : St → Op → St`.  Every operation that the C++
code performs while it holds `message_mutex` is one step; where the C++ code releases the mutex in
the middle (`receive` l.771, the timer callback l.551) the two halves are two steps.

Simplifications (all definitions of this file):
* message ids are natural numbers handed out by a counter (`create_message_id` yields UUIDs, which are
  assumed never to repeat, also across restarts);
* the JSON message is reduced to the fields the queue looks at or changes: id, action (`Kind`),
  `transactionId` and `offline`;
* `queues_total_size_threshold` is a natural number (the C++ compares an `int` with a `size_t`);
* condition-variable notifications are not modelled: the worker may run an iteration whenever its wait
  predicate holds;
* database writes always succeed (the C++ logs and ignores failures);
* `next_message_mutex` sections are part of the surrounding step.
-/

namespace Verif.MQ

/-- Message types as far as the queue distinguishes them (lib/ocpp/v16/message_queue.cpp l.20-38,
lib/ocpp/v2/message_queue.cpp l.9-31).
* 1.6: `StartTransaction` = `txStart`, `MeterValues` = `txUpdate`, `StopTransaction` = `txOther`;
* 2.x: `TransactionEvent` with eventType Updated = `txUpdate`, with Started/Ended = `txOther`. -/
inductive Kind
  | boot
  | txStart
  | txUpdate
  | txOther
  | secEvent
  | normal (ty : Nat)
deriving DecidableEq, Repr

/-- `is_transaction_message` (v16/message_queue.cpp l.20-24, v2/message_queue.cpp l.9-12). -/
def Kind.isTx : Kind → Bool
  | .txStart | .txUpdate | .txOther | .secEvent => true
  | .boot | .normal _ => false

/-- `is_transaction_update_message` (v16/message_queue.cpp l.34-36, v2/message_queue.cpp l.22-28). -/
def Kind.isUpdate : Kind → Bool
  | .txUpdate => true
  | _ => false

/-- `MessageQueueConfig` (message_queue.hpp l.27-49).  `v2` tells which protocol instantiates the
template. -/
structure Cfg where
  v2 : Bool := true
  attempts : Int := 3
  retryInterval : Int := 30
  threshold : Nat := 500
  queueAll : Bool := false
  discard : List Kind := []
  bootInterval : Int := 60

/-- `MessageQueueConfig::check_queue` (l.46-48). -/
def Cfg.checkQueue (c : Cfg) (k : Kind) : Bool := c.queueAll && !c.discard.contains k

/-- `ControlMessage` (l.63-83).  `uid` is `message[MESSAGE_ID]`, `iid` is `initial_unique_id`, `txId` is a
`transactionId` written into the payload by the queue, `offline` the flag of l.534.  `trig` is a ghost
field: the message was dispatched as triggered by the CSMS. -/
structure Msg where
  uid : Nat
  iid : Nat
  kind : Kind
  attempts : Nat
  ts : Int
  stall : Bool
  txId : Option Int := none
  offline : Bool := false
  trig : Bool := false
deriving DecidableEq, Repr

/-- A row of `NORMAL_QUEUE`/`TRANSACTION_QUEUE` (`DBTransactionMessage`). -/
structure Row where
  iid : Nat
  kind : Kind
  attempts : Nat
  ts : Int
deriving DecidableEq, Repr

/-- `QueueType` without `None`. -/
inductive Q
  | normal
  | tx
deriving DecidableEq, Repr

/-- Why a message left the queue for good (ghost). -/
inductive Reason
  | answered   -- a CALLRESULT for it was processed
  | gaveUp     -- no (more) attempts after a timeout or CALLERROR
  | evicted    -- removed by `check_queue_sizes`
  | ignored    -- security event discarded when loading persisted messages
  | popped     -- removed by `normal_message_queue.pop_front()` in l.545
deriving DecidableEq, Repr

/-- A database write. -/
inductive DbWrite
  | ins (q : Q) (r : Row)
  | del (q : Q) (iid : Nat) (why : Reason)
  | clear (q : Q)
deriving DecidableEq, Repr

/-- What an observer of the queue sees, in chronological order. -/
inductive Ev
  | push (iid : Nat) (k : Kind)            -- the application's message was put into a queue
  | send (m : Msg)                          -- CALL handed to the websocket successfully
  | answer (uid iid : Nat)                  -- matching CALLRESULT processed
  | failed (uid iid : Nat)                  -- timeout or CALLERROR handling of the outstanding call
  | timerFired (uid : Nat)                  -- response timer of the outstanding call expired
  | errRecv (uid : Nat)                     -- matching CALLERROR received
  | fulfil (iid : Nat) (offline : Bool)     -- promise of the message set
  | done (iid : Nat) (why : Reason)         -- the message left the queue for good
  | recv (uid : Nat)                        -- some CALLRESULT/CALLERROR received
  | csmsCall (uid : Nat)                    -- CALL of the CSMS received
  | reply (uid : Nat)                       -- CALLRESULT/CALLERROR of the station sent
  | accepted                                -- `set_registration_status_accepted`
  | restart                                 -- process (re)started
deriving DecidableEq, Repr

/-- Things that take the process down. -/
inductive Fault
  | nullInFlight      -- `in_flight` dereferenced while null
  | promiseTwice      -- `std::promise::set_value` called a second time (throws `future_error`)
deriving DecidableEq, Repr

structure St where
  cfg : Cfg
  now : Int
  txq : List Msg
  nq : List Msg
  inFlight : Option Msg
  timerArmed : Bool
  pendT : Nat                       -- expired response timers whose callback has not run yet
  pendE : Nat                       -- CALLERRORs received whose handling has not run yet (l.771)
  paused : Bool
  resuming : Bool
  running : Bool
  newMsg : Bool
  accepted : Bool
  reg : Bool                        -- `registration_status == Accepted` of the dispatchers
  hold : Option Nat                 -- `next_message_to_send`
  ctr : Nat                         -- `pause_resume_ctr`
  resumeCbs : List Nat              -- counters captured by resume-timer callbacks that may still run
  notifyAt : Option Int             -- `notify_queue_timer`
  midTx : List (Nat × Int)          -- `message_id_transaction_id_map`
  mvMap : List (Nat × List Nat)     -- `start_transaction_mid_meter_values_mid_map`
  dbN : List Row
  dbT : List Row
  nextId : Nat
  fault : Option Fault
  promiseSet : List Nat             -- messages whose promise has been set (promises do not outlive the process)
  writes : List DbWrite             -- database writes of the current operation
  trace : List Ev

/-- Append an observable event. -/
def St.emit (s : St) (e : Ev) : St := { s with trace := s.trace ++ [e] }

/-- Effect of one write on a table (database_handler_common.cpp l.83-131).  The table scan of
`get_message_queue_messages` is assumed to return rows in insertion order. -/
def DbWrite.onTable (q : Q) (t : List Row) : DbWrite → List Row
  | .ins q' r => if q' = q then t ++ [r] else t
  | .del q' i _ => if q' = q then t.filter (fun r => r.iid != i) else t
  | .clear q' => if q' = q then [] else t

/-- Perform a database write. -/
def St.db (s : St) (w : DbWrite) : St :=
  { s with dbN := w.onTable .normal s.dbN, dbT := w.onTable .tx s.dbT, writes := s.writes ++ [w] }

def Msg.row (m : Msg) : Row := ⟨m.iid, m.kind, m.attempts, m.ts⟩

/-- `promise.set_value`: the second call on the same promise throws. -/
def St.fulfil (s : St) (i : Nat) (off : Bool) : St :=
  if i ∈ s.promiseSet then { s with fault := some .promiseTwice }
  else { s with promiseSet := i :: s.promiseSet }.emit (.fulfil i off)

/-! ## Overflow handling (l.289-372) -/

/-- One round of the loop in `drop_messages_from_normal_message_queue` (l.317-329). -/
def St.dropFront (s : St) : St :=
  match s.nq with
  | [] => s
  | m :: rest =>
    let s := if s.cfg.queueAll then s.db (.del .normal m.iid .evicted) else s
    { s with nq := rest }.emit (.done m.iid .evicted)

/-- `drop_messages_from_normal_message_queue` (l.310-330). -/
def St.dropNormal (s : St) : St :=
  (List.range (min s.nq.length (max (s.cfg.threshold / 10) 1))).foldl (fun s _ => s.dropFront) s

/-- First loop of `check_queue_sizes` (l.298-302); `fuel` bounds the iterations (each one removes a
message, so `nq.length` suffices). -/
def St.dropNormalLoop : Nat → St → St
  | 0, s => s
  | fuel + 1, s =>
    if s.txq.length + s.nq.length > s.cfg.threshold ∧ s.nq ≠ [] then
      St.dropNormalLoop fuel s.dropNormal
    else s

/-- The element loop of `drop_update_messages_from_transactional_message_queue` (l.342-362):
returns (kept, dropped); `rm` is `remove_next_update_message`. -/
def dropPass : Bool → List Msg → List Msg × List Msg
  | _, [] => ([], [])
  | rm, e :: rest =>
    if rm && e.kind.isUpdate && decide (rest.length > 1) then
      let r := dropPass false rest
      (r.1, e :: r.2)
    else
      let r := dropPass true rest
      (e :: r.1, r.2)

/-- Database removal and bookkeeping for a list of dropped transaction messages (l.349-357). -/
def St.evictTx (s : St) : List Msg → St
  | [] => s
  | m :: rest => ((s.db (.del .tx m.iid .evicted)).emit (.done m.iid .evicted)).evictTx rest

/-- Second loop of `check_queue_sizes` (l.304-307). -/
def St.dropUpdateLoop : Nat → St → St
  | 0, s => s
  | fuel + 1, s =>
    if s.txq.length + s.nq.length > s.cfg.threshold then
      let r := dropPass true s.txq
      if r.2 = [] then s
      else St.dropUpdateLoop fuel ({ s with txq := r.1 }.evictTx r.2)
    else s

/-- `check_queue_sizes` (l.289-308). -/
def St.checkSizes (s : St) : St :=
  if s.txq.length + s.nq.length ≤ s.cfg.threshold then s
  else
    let s := St.dropNormalLoop s.nq.length s
    St.dropUpdateLoop s.txq.length s

/-! ## Pushing (l.243-287, 635-723) -/

/-- `add_to_normal_message_queue` (l.243-268). -/
def St.addNormal (s : St) (m : Msg) : St :=
  let s := { s with nq := if m.kind = Kind.boot then m :: s.nq else s.nq ++ [m] }
  let s := s.emit (.push m.iid m.kind)
  let s := if s.cfg.checkQueue m.kind then s.db (.ins .normal m.row) else s
  { s with newMsg := true }.checkSizes

/-- `add_to_transaction_message_queue` (l.269-287). -/
def St.addTx (s : St) (m : Msg) : St :=
  let s := { s with txq := s.txq ++ [m] }
  let s := s.emit (.push m.iid m.kind)
  let s := s.db (.ins .tx m.row)
  { s with newMsg := true }.checkSizes

/-- A freshly constructed `ControlMessage` (v2/message_queue.cpp l.30-37) and the state with its id used up. -/
def St.fresh (s : St) (k : Kind) (stall trig : Bool) : St × Msg :=
  ({ s with nextId := s.nextId + 1 },
   { uid := s.nextId, iid := s.nextId, kind := k, attempts := 0, ts := s.now, stall := stall, trig := trig })

/-- Condition under which a non-transaction message is queued (l.651-652, 712-713). -/
def St.takesNormal (s : St) (k : Kind) : Bool :=
  !s.paused || s.resuming || s.cfg.checkQueue k || decide (k = .boot)

/-- `push_call` (l.635-657). -/
def St.pushCall (s : St) (k : Kind) (stall trig : Bool) : St :=
  let (s, m) := s.fresh k stall trig
  if !s.running then s
  else if k.isTx then s.addTx m
  else if s.takesNormal k then s.addNormal m
  else s

/-- `push_call_async` (l.698-723). -/
def St.pushCallAsync (s : St) (k : Kind) (trig : Bool) : St :=
  let (s, m) := s.fresh k false trig
  if !s.running then s.fulfil m.iid true
  else if k.isTx then s.addTx m
  else if s.takesNormal k then s.addNormal m
  else s.fulfil m.iid true

/-- `MessageTransmissionPriority` (l.86-91). -/
inductive Prio
  | immediately
  | afterAccepted
  | discard
deriving DecidableEq, Repr

/-- `get_message_transmission_priority` (l.98-111). -/
def prio (boot triggered accepted tx queueAll : Bool) : Prio :=
  if accepted || boot || triggered then .immediately
  else if tx || queueAll then .afterAccepted
  else .discard

/-- `MessageDispatcher::dispatch_call` (v2/message_dispatcher.cpp l.10-27, v16/message_dispatcher.cpp l.9-26).
The `QueueAllMessages` variable is identified with the queue's configuration. -/
def St.dispatch (s : St) (k : Kind) (triggered : Bool) : St :=
  match prio (decide (k = .boot)) triggered s.reg k.isTx s.cfg.queueAll with
  | .immediately => s.pushCall k false triggered
  | .afterAccepted => s.pushCall k true triggered
  | .discard => s

/-- `MessageDispatcher::dispatch_call_async` (v2 l.29-49: `triggered` ignored; v16 l.28-48).  A message that is not
sent gets an already fulfilled future of its own; it never reaches the queue. -/
def St.dispatchAsync (s : St) (k : Kind) (triggered : Bool) : St :=
  let trg := triggered && !s.cfg.v2
  match prio (decide (k = .boot)) trg s.reg k.isTx s.cfg.queueAll with
  | .immediately => s.pushCallAsync k trg
  | _ => s

/-! ## Worker thread (l.417-573) -/

/-- `allowed_to_send_message` (l.152-163). -/
def Msg.allowed (m : Msg) (now : Int) (accepted : Bool) : Bool :=
  !(m.stall && !accepted) && !decide (m.ts > now)

/-- Modify the first element satisfying `p` (elements are shared pointers, so changes to the selected
message show in the queue). -/
def updFirst (p : α → Bool) (f : α → α) : List α → List α
  | [] => []
  | a :: l => if p a then f a :: l else a :: updFirst p f l

/-- `reset_in_flight` (l.781-784). -/
def St.resetInFlight (s : St) : St := { s with inFlight := none, timerArmed := false }

/-- l.455-464: the first normal message allowed to be sent. -/
def St.selNormal (s : St) : Option Msg := s.nq.find? (·.allowed s.now s.accepted)

/-- l.468-494: does the transaction message `m` go before the selected normal message? -/
def Msg.before (m : Msg) : Option Msg → Bool
  | none => true
  | some n => decide (n.kind ≠ Kind.boot) && decide (m.ts ≤ n.ts)

/-- l.466-495: the head of the transaction queue if it goes first. -/
def St.selTx (s : St) : Option Msg :=
  match s.txq with
  | [] => none
  | m :: _ => if m.allowed s.now s.accepted && m.before s.selNormal then some m else none

/-- l.517-525: attempt counter and transaction id replacement. -/
def St.prepare (s : St) (m : Msg) : Msg :=
  { m with attempts := m.attempts + 1,
           txId := (s.midTx.lookup m.uid).or m.txId }

/-- l.565-567. -/
def St.clearNewMsg (s : St) : St :=
  if s.txq = [] ∧ s.nq = [] then { s with newMsg := false } else s

/-- l.515-567 for the selected message `m`, which sits at the front of the transaction queue (`q = tx`) or is the
first allowed one of the normal queue (`q = normal`); `ok` is the result of `send_callback`. -/
def St.attempt (s : St) (q : Q) (m : Msg) (ok : Bool) : St :=
  let m1 := s.prepare m
  let s := { s with midTx := s.midTx.filter (fun e => e.1 != m.uid) }
  let p : Msg → Bool := fun x => x.allowed s.now s.accepted
  if ok then
    let s := match q with
      | .tx => { s with txq := s.txq.tail }
      | .normal => { s with nq := s.nq.eraseP p }
    ({ s with inFlight := some m1, timerArmed := true }.emit (.send m1)).clearNewMsg
  else
    let s := { s with paused := true }
    let s :=
      if m.kind.isTx then
        let m2 := if s.cfg.v2 && decide (m.kind ≠ Kind.secEvent) then { m1 with offline := true } else m1
        match q with
        | .tx => { s with txq := m2 :: s.txq.tail }
        | .normal => { s with nq := updFirst p (fun _ => m2) s.nq }
      else if s.cfg.checkQueue m.kind then
        match q with
        | .tx => { s with txq := m1 :: s.txq.tail }
        | .normal => { s with nq := updFirst p (fun _ => m1) s.nq }
      else
        match q with
        | .tx => { s with txq := m1 :: s.txq.tail }
        | .normal =>
          let s := { s with nq := updFirst p (fun _ => m1) s.nq }.fulfil m1.iid true
          if s.fault.isSome then s
          else match s.nq with
          | [] => s
          | f :: rest => { s with nq := rest }.emit (.done f.iid .popped)
    s.resetInFlight.clearNewMsg

/-- The wait predicate of l.426-428. -/
def St.awake (s : St) : Bool :=
  !s.running || (!s.paused && s.newMsg && s.inFlight.isNone)

/-- One iteration of the worker loop (l.420-570). -/
def St.worker (s : St) (ok : Bool) : St :=
  if !s.awake then s
  else if s.txq = [] ∧ s.nq = [] then s
  else if s.paused then s
  else if s.inFlight.isSome then s
  else
    let sel : Option (Q × Msg) :=
      match s.selTx with
      | some m => some (.tx, m)
      | none => match s.selNormal with
        | some m => some (.normal, m)
        | none => none
    match sel with
    | none => { s with newMsg := false }
    | some (q, m) =>
      match s.hold with
      | some h => if h ≠ m.uid then s else s.attempt q m ok
      | none => s.attempt q m ok

/-! ## Answers (l.728-920) -/

/-- `receive` for a CALLRESULT with id `uid`, including `handle_call_result` (l.747-778, 786-817). -/
def St.recvResult (s : St) (uid : Nat) : St :=
  let s := { s with hold := none }.emit (.recv uid)
  match s.inFlight with
  | none => s
  | some m =>
    if m.uid ≠ uid then s
    else
      let s := s.fulfil m.iid false
      if s.fault.isSome then s
      else
        let s := s.emit (.answer m.uid m.iid)
        let s := if m.kind.isTx || s.cfg.checkQueue m.kind then
            s.db (.del (if m.kind.isTx then .tx else .normal) m.iid .answered)
          else s
        (s.emit (.done m.iid .answered)).resetInFlight

/-- First half of `receive` for a CALLERROR (l.747-771). -/
def St.recvError (s : St) (uid : Nat) : St :=
  let s := { s with hold := none }.emit (.recv uid)
  match s.inFlight with
  | none => s
  | some m => if m.uid ≠ uid then s else { s with pendE := s.pendE + 1 }.emit (.errRecv uid)

/-- `handle_timeout_or_callerror` (l.820-920).  `off` is true for a timeout. -/
def St.handleFail (s : St) (off : Bool) : St :=
  match s.inFlight with
  | none => { s with fault := some .nullInFlight }
  | some m =>
    let s := s.emit (.failed m.uid m.iid)
    if m.kind.isTx || s.cfg.checkQueue m.kind then
      if (m.attempts : Int) < s.cfg.attempts then
        let m' := { m with
          uid := s.nextId,
          ts := if s.cfg.retryInterval > 0 then m.ts + s.cfg.retryInterval * m.attempts else s.now }
        let s := { s with nextId := s.nextId + 1, notifyAt := some m'.ts }
        let s := if m.kind.isTx then { s with txq := m' :: s.txq } else { s with nq := m' :: s.nq }
        s.resetInFlight
      else
        let s := s.fulfil m.iid off
        if s.fault.isSome then s
        else
          let s := s.db (.del (if m.kind.isTx then .tx else .normal) m.iid .gaveUp)
          (s.emit (.done m.iid .gaveUp)).resetInFlight
    else if m.kind = .boot then
      let m' := { m with uid := s.nextId, ts := m.ts + s.cfg.bootInterval }
      { s with nextId := s.nextId + 1, notifyAt := some m'.ts, nq := m' :: s.nq }.resetInFlight
    else
      let s := s.fulfil m.iid off
      if s.fault.isSome then s
      else (s.emit (.done m.iid .gaveUp)).resetInFlight

/-- The response timer armed in l.551 expires; its callback starts but has not taken the mutex yet. -/
def St.timerFire (s : St) : St :=
  match s.inFlight with
  | some m => if s.timerArmed then { s with timerArmed := false, pendT := s.pendT + 1 }.emit (.timerFired m.uid)
              else s
  | none => s

/-- The timer callback (l.551) runs. -/
def St.runTimeout (s : St) : St :=
  if s.pendT = 0 then s else { s with pendT := s.pendT - 1 }.handleFail true

/-- Second half of `receive` for a CALLERROR (l.772). -/
def St.runError (s : St) : St :=
  if s.pendE = 0 then s else { s with pendE := s.pendE - 1 }.handleFail false

/-! ## Pause, resume, registration (l.374-383, 932-970) -/

/-- `pause` (l.933-942). -/
def St.pause (s : St) : St := { s with ctr := s.ctr + 1, paused := true, resuming := false }

/-- `resume_now` (l.375-383). -/
def St.resumeNow (s : St) (c : Nat) : St :=
  if s.ctr = c then { s with paused := false, resuming := false } else s

/-- `resume` (l.945-962); `delayed` is `delay_on_reconnect > 0`. -/
def St.resume (s : St) (delayed : Bool) : St :=
  if !s.paused then s
  else
    let s := { s with ctr := s.ctr + 1 }
    if s.ctr > 1 && delayed then { s with resuming := true, resumeCbs := s.ctr :: s.resumeCbs }
    else s.resumeNow s.ctr

/-- A resume-timer callback runs.  Callbacks are never removed from `resumeCbs`: cancelling a timer does not stop
a callback that is already waiting for the mutex. -/
def St.resumeFire (s : St) (c : Nat) : St := if c ∈ s.resumeCbs then s.resumeNow c else s

/-! ## Restart -/

/-- The `ControlMessage` rebuilt from a row (l.603-607). -/
def Row.load (r : Row) : Msg :=
  { uid := r.iid, iid := r.iid, kind := r.kind, attempts := r.attempts, ts := r.ts, stall := true }

/-- Body of the loop over the rows of one table in `get_persisted_messages_from_db` (l.589-615). -/
def St.loadRows (s : St) (q : Q) (ignoreSec : Bool) : List Row → St
  | [] => s
  | r :: rest =>
    if ignoreSec && decide (r.kind = Kind.secEvent) then
      ((s.db (.del q r.iid .ignored)).emit (.done r.iid .ignored)).loadRows q ignoreSec rest
    else
      (match q with
       | .normal => { s with nq := s.nq ++ [r.load] }
       | .tx => { s with txq := s.txq ++ [r.load] }).loadRows q ignoreSec rest

/-- `get_persisted_messages_from_db` (l.582-633). -/
def St.load (s : St) (ignoreSec : Bool) : St :=
  let s1 := s.loadRows .normal ignoreSec s.dbN
  let s1 := if s.dbN ≠ [] then { s1 with newMsg := true } else s1
  let s2 := s1.loadRows .tx ignoreSec s1.dbT
  let s2 := if s1.dbT ≠ [] then { s2 with newMsg := true } else s2
  if !s2.cfg.queueAll then s2.db (.clear .normal) else s2

/-- Loss of everything but the database, and construction of a new queue (l.393-410). -/
def St.reset (s : St) (cfg : Cfg) : St :=
  { cfg := cfg, now := s.now, txq := [], nq := [], inFlight := none, timerArmed := false, pendT := 0, pendE := 0,
    paused := true, resuming := false, running := true, newMsg := false, accepted := false, reg := false,
    hold := none, ctr := 0, resumeCbs := [], notifyAt := none, midTx := [], mvMap := [],
    dbN := s.dbN, dbT := s.dbT, nextId := s.nextId, fault := none, promiseSet := [],
    writes := s.writes,
    trace := s.trace ++ [.restart] }

/-- Process restart: new queue object, then `get_persisted_messages_from_db`. -/
def St.restart (s : St) (cfg : Cfg) (ignoreSec : Bool) : St := (s.reset cfg).load ignoreSec

/-! ## Transaction ids (l.1020-1057) -/

/-- `add_stopped_transaction_id` (l.1020-1023). -/
def St.addStopped (s : St) (uid : Nat) (tid : Int) : St :=
  { s with midTx := (uid, tid) :: s.midTx.filter (fun e => e.1 != uid) }

/-- `add_meter_value_message_id` (l.1025-1035). -/
def St.addMeterValueId (s : St) (start mv : Nat) : St :=
  match s.mvMap.lookup start with
  | some l => { s with mvMap := (start, l ++ [mv]) :: s.mvMap.filter (fun e => e.1 != start) }
  | none => { s with mvMap := (start, [mv]) :: s.mvMap }

/-- `notify_start_transaction_handled` (l.1037-1057). -/
def St.notifyStart (s : St) (start : Nat) (tid : Int) : St :=
  match s.mvMap.lookup start with
  | some l => { s with
      txq := s.txq.map (fun m => if l.contains m.uid then { m with txId := some tid } else m),
      mvMap := s.mvMap.filter (fun e => e.1 != start) }
  | none => s

/-! ## Operations -/

inductive BaseOp
  | push (k : Kind) (stall : Bool)          -- `push_call`
  | pushAsync (k : Kind)                    -- `push_call_async`
  | dispatch (k : Kind) (triggered : Bool)
  | dispatchAsync (k : Kind) (triggered : Bool)
  | worker (sendOk : Bool)
  | recvResult (uid : Nat)
  | recvError (uid : Nat)                   -- up to releasing the mutex
  | runError                                -- the rest
  | timerFire                               -- response timer expires
  | runTimeout                              -- its callback gets the mutex
  | timeout                                 -- both without interruption
  | callError (uid : Nat)                   -- `recvError` and `runError` without interruption
  | csmsCall (uid : Nat)
  | reply (uid : Nat)
  | resetHold
  | pause
  | resume (delayed : Bool)
  | resumeFire (c : Nat)
  | regStatus (accepted : Bool)             -- BootNotification answer processed
  | notifyFire
  | tick (d : Nat)
  | stop
  | addStopped (uid : Nat) (tid : Int)
  | addMeterValueId (start mv : Nat)
  | notifyStart (start : Nat) (tid : Int)
  | setAttempts (n : Int)
  | setRetryInterval (n : Int)
  | restart (cfg : Cfg) (ignoreSec : Bool)

/-- The `receive` branch for a CALL (l.735-745). -/
def St.csmsCall (s : St) (uid : Nat) : St := { s with hold := some uid }.emit (.csmsCall uid)

/-- `push_call_result`, `push_call_error` (l.660-694). -/
def St.reply (s : St) (uid : Nat) : St :=
  if !s.running then s
  else
    let s := s.emit (.reply uid)
    if s.hold = some uid then { s with hold := none } else s

/-- Answer to BootNotification: provisioning.cpp l.172-190 / charge_point_impl.cpp l.1669-1690 set the dispatcher's
status and, if Accepted, the queue's flag (`set_registration_status_accepted`, l.964-970). -/
def St.regStatus (s : St) (acc : Bool) : St :=
  let s := { s with reg := acc }
  if acc then { s with accepted := true }.emit .accepted else s

/-- `notify_queue_timer` expires (l.866-871, 902-907). -/
def St.notifyFire (s : St) : St :=
  match s.notifyAt with
  | some t => if t ≤ s.now then { s with newMsg := true, notifyAt := none } else s
  | none => s

def baseStep (s : St) (op : BaseOp) : St :=
  match op with
  | .push k stall => s.pushCall k stall false
  | .pushAsync k => s.pushCallAsync k false
  | .dispatch k t => s.dispatch k t
  | .dispatchAsync k t => s.dispatchAsync k t
  | .worker ok => s.worker ok
  | .recvResult u => s.recvResult u
  | .recvError u => s.recvError u
  | .runError => s.runError
  | .timerFire => s.timerFire
  | .runTimeout => s.runTimeout
  | .timeout => if s.timerArmed then s.timerFire.runTimeout else s
  | .callError u => (s.recvError u).runError
  | .csmsCall u => s.csmsCall u
  | .reply u => s.reply u
  | .resetHold => { s with hold := none }
  | .pause => s.pause
  | .resume d => s.resume d
  | .resumeFire c => s.resumeFire c
  | .regStatus a => s.regStatus a
  | .notifyFire => s.notifyFire
  | .tick d => { s with now := s.now + d }
  | .stop => { s with running := false }
  | .addStopped u t => s.addStopped u t
  | .addMeterValueId a b => s.addMeterValueId a b
  | .notifyStart a t => s.notifyStart a t
  | .setAttempts n => { s with cfg := { s.cfg with attempts := n } }
  | .setRetryInterval n => { s with cfg := { s.cfg with retryInterval := n } }
  | .restart c i => s.restart c i

/-- Operations of a history.  `crash op k cfg ign` means: `op` was interrupted by a power cut after its first
`k` database writes, and the station then started again. -/
inductive Op
  | run (op : BaseOp)
  | crash (op : BaseOp) (k : Nat) (cfg : Cfg) (ignoreSec : Bool)

/-- What an interrupted operation has made known: the events belonging to the database writes that got through. -/
def DbWrite.ev : DbWrite → List Ev
  | .ins _ r => [.push r.iid r.kind]
  | .del _ i why => [.done i why]
  | .clear _ => []

/-- The surviving database after the first writes `ws` of an interrupted operation. -/
def St.partialWrites (s : St) (ws : List DbWrite) : St :=
  { s with
    dbN := ws.foldl (fun t w => w.onTable .normal t) s.dbN,
    dbT := ws.foldl (fun t w => w.onTable .tx t) s.dbT,
    trace := s.trace ++ ws.flatMap DbWrite.ev }

def step (s : St) (op : Op) : St :=
  if s.fault.isSome then
    -- the process is gone; only a restart continues
    match op with
    | .run (.restart c i) => { s with writes := [] }.restart c i
    | .crash _ _ c i => { s with writes := [] }.restart c i
    | _ => s
  else
    match op with
    | .run b => baseStep { s with writes := [] } b
    | .crash b k c i =>
      let s' := baseStep { s with writes := [] } b
      let p := { s with writes := [], nextId := s'.nextId }.partialWrites (s'.writes.take k)
      p.restart c i

/-- The queue right after construction on an empty database. -/
def init (cfg : Cfg) (now : Int) : St :=
  { cfg := cfg, now := now, txq := [], nq := [], inFlight := none, timerArmed := false, pendT := 0, pendE := 0,
    paused := true, resuming := false, running := true, newMsg := false, accepted := false, reg := false,
    hold := none, ctr := 0, resumeCbs := [], notifyAt := none, midTx := [], mvMap := [],
    dbN := [], dbT := [], nextId := 0, fault := none, promiseSet := [], writes := [], trace := [] }

/-- Run a history. -/
def run (s : St) (ops : List Op) : St := ops.foldl step s

end Verif.MQ
