/-!
Transactions of OCPP 1.6: lib/ocpp/v16/transaction.cpp, the transactions of lib/ocpp/v16/charge_point_impl.cpp and of lib/ocpp/v16/database_handler.cpp.

The thread of the application (`on_transaction_started`, `on_transaction_stopped`) is divided into steps at the points where the database is written or a
message is queued, so that answers of the CSMS can be handled in between and the station can crash in between.

Simplifications: message ids and session ids are numbers, message ids never repeat; of the message queue only the order of StartTransaction and StopTransaction
is kept (its own behaviour is the subject of C01 to C14); database statements succeed; the application has one thread.
-/

namespace Verif.Tx16

/-- A row of TRANSACTIONS, `TransactionEntry` (include/ocpp/v16/database_handler.hpp), reduced to what is used. -/
structure Row where
  session : Nat
  txId : Int
  conn : Nat
  acked : Bool := false
  startMid : Nat
  stopMid : Option Nat := none
  meterStart : Int := 0
  meterLast : Int := 0
  meterStop : Option Int := none
  deriving DecidableEq, Repr

/-- `Transaction`, include/ocpp/v16/transaction.hpp l.28-44.  `timer`: it has a timer for the sampled meter values. -/
structure Tx where
  session : Nat
  conn : Nat
  internal : Int
  txId : Option Int := none
  startMid : Option Nat := none
  stopMid : Option Nat := none
  finished : Bool := false
  timer : Bool := true
  deriving DecidableEq, Repr

/-- StartTransaction.req (`stop = false`) or StopTransaction.req in the message queue: message id, message id of the first transmission (which is the one in
the database), session it belongs to (not part of the message), transaction id, meter value. -/
structure Msg where
  mid : Nat
  iid : Nat
  session : Nat
  stop : Bool
  id : Int := 0
  meter : Int := 0
  deriving DecidableEq, Repr

/-- What the CSMS sees: StartTransaction.req of a session answered with a transaction id; StopTransaction.req of a session with id and meter value. -/
inductive Ev
  | assigned (session : Nat) (id : Int)
  | stopped (session : Nat) (id : Int) (meter : Int)
  deriving DecidableEq, Repr

/-- Where the thread of the application is. -/
inductive Pc
  | idle
  /-- in `start_transaction`, after the row was inserted -/
  | starting (t : Tx) (mid : Nat) (meter : Int)
  /-- in `stop_transaction`, after StopTransaction.req was queued -/
  | queued (c : Nat) (session : Nat) (mid : Nat) (meter : Int)
  /-- in `stop_transaction`, after the transaction was marked as finished -/
  | marked (session : Nat) (mid : Nat) (meter : Int)
  deriving DecidableEq, Repr

/-- The station: database, queue (persistent), ids registered for queued messages, transactions in memory, next message id, what the CSMS has seen. -/
structure S where
  rows : List Row := []
  queue : List Msg := []
  map : List (Nat × Int) := []
  active : List Tx := []
  stopped : List Tx := []
  pc : Pc := .idle
  next : Nat := 0
  log : List Ev := []
  deriving DecidableEq, Repr

/-- `INSERT INTO TRANSACTIONS`, database_handler.cpp l.49-82: the session id is the primary key, a second row is an exception that is logged. -/
def insertRow (l : List Row) (r : Row) : List Row := if l.any (fun x => x.session == r.session) then l else l ++ [r]

/-- `UPDATE TRANSACTIONS … WHERE ID==@session_id`. -/
def updateRow (l : List Row) (session : Nat) (f : Row → Row) : List Row := l.map (fun r => if r.session = session then f r else r)

/-- `add_transaction`, transaction.cpp l.151-154: `active_transactions` has one place for each connector; here a list without empty places. -/
def addActive (l : List Tx) (t : Tx) : List Tx := t :: l.filter (fun x => x.conn != t.conn)

/-- `get_transaction(connector)`, transaction.cpp l.183-189. -/
def onConn (l : List Tx) (c : Nat) : Option Tx := l.find? (fun t => t.conn == c)

/-- `get_transaction(message_id)`, transaction.cpp l.191-207: active ones first, then the stopped ones. -/
def byMid (s : S) (mid : Nat) : Option Tx := (s.active ++ s.stopped).find? (fun t => t.startMid == some mid || t.stopMid == some mid)

/-- A transaction in memory is changed (it is shared by pointer; it is recognised by its session). -/
def updateTx (l : List Tx) (session : Nat) (f : Tx → Tx) : List Tx := l.map (fun t => if t.session = session then f t else t)

/-- `start_transaction` up to the row, charge_point_impl.cpp l.4298-4315 (called from `on_transaction_started`, l.4356-4418): internal id `r`. -/
def startInsert (s : S) (c session : Nat) (r meter : Int) : S :=
  match s.pc with
  | .idle => { s with
      rows := insertRow s.rows { session := session, txId := r, conn := c, startMid := s.next, meterStart := meter, meterLast := meter }
      pc := .starting { session := session, conn := c, internal := r } s.next meter
      next := s.next + 1 }
  | _ => s

/-- The rest of `start_transaction`, charge_point_impl.cpp l.4317-4334. -/
def startQueue (s : S) : S :=
  match s.pc with
  | .starting t mid meter => { s with
      active := addActive s.active { t with startMid := some mid }
      queue := s.queue ++ [{ mid := mid, iid := mid, session := t.session, stop := false, meter := meter }]
      pc := .idle }
  | _ => s

/-- The transaction id of a StopTransaction.req, charge_point_impl.cpp l.4477. -/
def Tx.id (t : Tx) : Int := t.txId.getD t.internal

/-- `on_transaction_stopped` (charge_point_impl.cpp l.4421-4441: nothing without a transaction) and `stop_transaction` up to `dispatch_call` (l.4460-4499). -/
def stopQueue (s : S) (c : Nat) (meter : Int) : S :=
  match s.pc with
  | .idle => match onConn s.active c with
    | none => s
    | some t => { s with
        queue := s.queue ++ [{ mid := s.next, iid := s.next, session := t.session, stop := true, id := t.id, meter := meter }]
        pc := .queued c t.session s.next meter
        next := s.next + 1 }
  | _ => s

/-- `set_finished`, `set_stop_transaction_message_id`, `add_stopped_transaction`, charge_point_impl.cpp l.4507-4509, transaction.cpp l.156-158. -/
def stopMark (s : S) : S :=
  match s.pc with
  | .queued c session mid meter => { s with
      active := s.active.filter (fun t => t.conn != c)
      stopped := s.stopped ++ (s.active.filter (fun t => t.conn == c)).map (fun t => { t with finished := true, stopMid := some mid })
      pc := .marked session mid meter }
  | _ => s

/-- What `update_transaction` stores at the end, database_handler.cpp l.104-129. -/
def ended (mid : Nat) (meter : Int) (r : Row) : Row := { r with meterStop := some meter, stopMid := some mid }

/-- The last statement of `stop_transaction`, charge_point_impl.cpp l.4511-4517. -/
def stopStore (s : S) : S :=
  match s.pc with
  | .marked session mid meter => { s with rows := updateRow s.rows session (ended mid meter), pc := .idle }
  | _ => s

/-- The timer of the sampled meter values, charge_point_impl.cpp l.4373-4401: METER_LAST of the transaction; resumed transactions have no timer. -/
def sample (s : S) (c : Nat) (v : Int) : S :=
  match onConn s.active c with
  | some t => if t.timer then { s with rows := updateRow s.rows t.session (fun r => { r with meterLast := v }) } else s
  | none => s

/-- The first entry of a key. -/
def get (l : List (Nat × Int)) (k : Nat) : Option Int := (l.find? (fun p => p.1 == k)).map (·.2)

/-- `add_stopped_transaction_id`, message_queue.hpp l.1020-1023, if the transaction is finished, charge_point_impl.cpp l.2349-2353. -/
def register (l : List (Nat × Int)) (t : Tx) (n : Int) : List (Nat × Int) :=
  match t.finished, t.stopMid with
  | true, some k => (k, n) :: l
  | _, _ => l

/-- `handleStartTransactionResponse`, charge_point_impl.cpp l.2342-2391, with the id `n`.  The
callbacks and the authorization cache (C110) are left out. -/
def startConf (s : S) (mid : Nat) (n : Int) : S :=
  match byMid s mid with
  | none => s
  | some t => { s with
      map := register s.map t n
      active := updateTx s.active t.session (fun t => { t with txId := some n })
      stopped := updateTx s.stopped t.session (fun t => { t with txId := some n })
      rows := updateRow s.rows t.session (fun r => { r with txId := n }) }

/-- `update_transaction_csms_ack`, database_handler.cpp l.131-142: the row is found by its transaction id. -/
def ack (l : List Row) (id : Int) : List Row := l.map (fun r => if r.txId = id then { r with acked := true } else r)

/-- `handleStopTransactionResponse`, charge_point_impl.cpp l.2393-2438, for a request with transaction id `id`; `erase_stopped_transaction`, transaction.cpp
l.172-181. -/
def stopConf (s : S) (mid : Nat) (id : Int) : S :=
  { s with rows := ack s.rows id, stopped := s.stopped.filter (fun t => t.stopMid != some mid) }

/-- The first message of the queue is sent and answered; StopTransaction.req with the registered id if there is one (message_queue.hpp l.520-525).  `n` is the id
the CSMS assigns. -/
def deliver (s : S) (n : Int) : S :=
  match s.queue with
  | [] => s
  | m :: q =>
    if m.stop then
      let id := (get s.map m.mid).getD m.id
      stopConf { s with queue := q, map := s.map.filter (fun p => p.1 != m.mid), log := s.log ++ [.stopped m.session id m.meter] } m.mid id
    else startConf { s with queue := q, log := s.log ++ [.assigned m.session n] } m.mid n

/-- The first message is given up, message_queue.hpp l.872-889. -/
def drop (s : S) : S := { s with queue := s.queue.tail }

/-- `start_transaction_message_retry_callback`, charge_point_impl.cpp l.246-261: the transaction of a message gets the new message id. -/
def renumber (s : S) (mid : Nat) (l : List Tx) : List Tx :=
  match byMid s mid with
  | none => l
  | some t => updateTx l t.session (fun t => { t with startMid := some s.next })

/-- The first message will be sent again with a new message id, message_queue.hpp l.826-865; `start_transaction_message_retry_callback`,
charge_point_impl.cpp l.246-261: the row is not changed, because `update_start_transaction_message_id` (database_handler.cpp l.144-156) never binds the session
id.  A registered id is written into the message at its first transmission. -/
def retry (s : S) : S :=
  match s.queue with
  | [] => s
  | m :: q =>
    if m.stop then { s with
      queue := { m with mid := s.next, id := (get s.map m.mid).getD m.id } :: q
      map := s.map.filter (fun p => p.1 != m.mid)
      next := s.next + 1 }
    else { s with
      queue := { m with mid := s.next } :: q
      next := s.next + 1
      active := renumber s m.mid s.active
      stopped := renumber s m.mid s.stopped }

/-- The transaction made of a row, charge_point_impl.cpp l.519-541; no timer.  (The internal id is a new random number; it is not used, because there is a
transaction id.) -/
def Row.tx (r : Row) : Tx :=
  { session := r.session, conn := r.conn, internal := r.txId, txId := some r.txId, startMid := some r.startMid, stopMid := r.stopMid, timer := false }

/-- One round of `try_resume_transactions`, charge_point_impl.cpp l.518-563: `resuming` are the sessions the application continues.
`contains_stop_transaction_message`, message_queue.hpp l.990-1001. -/
def resumeOne (resuming : List Nat) (s : S) (r : Row) : S :=
  if s.queue.any (fun m => m.stop && m.id == r.txId) then { s with
    active := s.active.filter (fun t => t.conn != r.conn)
    stopped := s.stopped ++ [{ r.tx with finished := true }] }
  else if resuming.contains r.session then { s with active := addActive s.active r.tx }
  else { s with
    queue := s.queue ++ [{ mid := s.next, iid := s.next, session := r.session, stop := true, id := r.txId, meter := r.meterStop.getD r.meterLast }]
    active := s.active.filter (fun t => t.conn != r.conn)
    stopped := s.stopped ++ [{ r.tx with finished := true, stopMid := some s.next }]
    rows := updateRow s.rows r.session (ended s.next (r.meterStop.getD r.meterLast))
    next := s.next + 1 }

/-- After a crash only the database is left; the messages have their first message ids again (`get_persisted_messages_from_db`). -/
def crashed (s : S) : S :=
  { s with active := [], stopped := [], map := [], pc := .idle, queue := s.queue.map (fun m => { m with mid := m.iid }) }

/-- A restart: `init`, charge_point_impl.cpp l.1139-1150; `try_resume_transactions`, l.510-564; `get_transactions(true)`, database_handler.cpp l.174-230.  (The
round of one row is not interrupted.) -/
def restart (s : S) (resuming : List Nat) : S := (s.rows.filter (fun r => !r.acked)).foldl (resumeOne resuming) (crashed s)

/-- What happens. -/
inductive Op
  | startInsert (c session : Nat) (r meter : Int)
  | startQueue
  | stopQueue (c : Nat) (meter : Int)
  | stopMark
  | stopStore
  | sample (c : Nat) (v : Int)
  | deliver (n : Int)
  | drop
  | retry
  | crash (resuming : List Nat)
  deriving DecidableEq, Repr

/-- One step. -/
def step (s : S) : Op → S
  | .startInsert c k r m => startInsert s c k r m
  | .startQueue => startQueue s
  | .stopQueue c m => stopQueue s c m
  | .stopMark => stopMark s
  | .stopStore => stopStore s
  | .sample c v => sample s c v
  | .deliver n => deliver s n
  | .drop => drop s
  | .retry => retry s
  | .crash l => restart s l

/-- A history. -/
def run (s : S) (ops : List Op) : S := ops.foldl step s

/-- `get_connector_from_transaction_id`, transaction.cpp l.226-239, and `handleRemoteStopTransactionRequest`, charge_point_impl.cpp l.2277-2294: the connector
whose transaction the application is told to stop, if the answer is Accepted. -/
def remoteStop (s : S) (id : Int) : Option Nat :=
  match s.active.find? (fun t => t.txId == some id) with
  | some t => if 0 < t.conn then some t.conn else none
  | none => none

/-- `change_meter_values_sample_intervals`, transaction.cpp l.249-256, l.55-58: `none` is the dereference of a null pointer.  (Transactions that are not finished
are active.) -/
def changeInterval (s : S) : Option Unit := if s.active.all (fun t => t.timer) then some () else none

end Verif.Tx16
