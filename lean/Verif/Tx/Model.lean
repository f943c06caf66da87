import Verif.Auth.Model

/-
Model of the life of OCPP 2.x transactions: opening, events, finishing, persistence and resumption
after a restart; the reset requests that wait for transactions; the remote start ids waiting for a
transaction.

Files modelled:
  lib/ocpp/v2/functional_blocks/transaction.cpp l.53-265
  lib/ocpp/v2/transaction.cpp
  lib/ocpp/v2/evse.cpp l.56-73 (boot), l.183-216 (resume), l.242-330, l.360-371 (open, close, release)
  lib/ocpp/v2/database_handler.cpp l.662-752, config/v2/core_migrations/4_up-transactions_db.sql
  lib/ocpp/v2/charge_point.cpp l.236-254, l.336-362, l.446-475 (sources of Updated events)
  lib/ocpp/v2/functional_blocks/remote_transaction_control.cpp l.278-293, l.369-389 (TriggerMessage)
  lib/ocpp/v2/functional_blocks/provisioning.cpp l.455-537 (handle_reset_req)

Simplifications, stated once:
  * Operations do not overlap in time: the code takes no lock around the sequence number, so the model
    speaks of the calls in the order in which they are made.
  * Each operation is a list of atomic steps. A power cut takes place between two steps; everything in
    memory is lost, everything in the database and every message handed to the message queue stays
    (whether a queued message survives is the subject of the model of the message queue).
  * `seq_no` is a natural number; the code would overflow after 2^31 events of one transaction.
  * Meter values, pricing triggers, timers and time stamps are left out; an event for a meter value is
    modelled by the fact that there is something to send.
-/
set_option linter.constructorNameAsVariable false

namespace Verif.Tx

open Verif.Auth (Str Token ciEq)

/-- `ChargingStateEnum` (include/ocpp/v2/ocpp_enums.hpp). -/
inductive Charging where
  | evConnected | charging | suspendedEV | suspendedEVSE | idle
deriving DecidableEq, Repr

/-- `TransactionEventEnum`. -/
inductive EventType where
  | started | updated | ended
deriving DecidableEq, Repr

/-- `TriggerReasonEnum`, reduced to the reasons the code itself writes (`other` stands for the reasons
that are passed in by the caller). -/
inductive Trigger where
  | authorized | remoteStart | trigger | meterValue | stopAuthorized | other (n : Nat)
deriving DecidableEq, Repr

/-- `ResetEnum`. -/
inductive ResetType where
  | immediate | onIdle
deriving DecidableEq, Repr

/-- `ResetStatusEnum`. -/
inductive ResetStatus where
  | accepted | rejected | scheduled
deriving DecidableEq, Repr

/-- `EnhancedTransaction` (include/ocpp/v2/transaction.hpp l.15-50). -/
structure Tx where
  id : Str
  connector : Nat
  seqNo : Nat
  idTokenSent : Bool
  charging : Option Charging
  remoteStartId : Option Int
  stopped : Bool
  dbEnabled : Bool
deriving DecidableEq, Repr

/-- A row of the table TRANSACTIONS (config/v2/core_migrations/4_up-transactions_db.sql). -/
structure Row where
  evse : Nat
  txId : Str
  connector : Nat
  seqNo : Nat
  charging : Charging
  idTokenSent : Bool
deriving DecidableEq, Repr

/-- A TransactionEventRequest, without meter values and time stamps. -/
structure Event where
  type : EventType
  txId : Str
  seqNo : Nat
  trigger : Trigger
  charging : Option Charging
  remoteStartId : Option Int
  evse : Option Nat
  token : Option Token
  stopped : Bool
deriving DecidableEq, Repr

/-- What can be seen from outside: TransactionEvent requests, answers to Reset requests, calls of the
callbacks `reset_callback` and `stop_transaction_callback`, EVSEs all of whose connectors are made
inoperative (`set_evse_connectors_unavailable`), and exceptions leaving the operation. -/
inductive Out where
  | event (e : Event)
  | resetAnswer (status : ResetStatus)
  | reset (evse : Option Nat) (type : ResetType)
  | stop (evse : Nat)
  | unavailable (evse : Nat)
  | threw
deriving DecidableEq, Repr

/-- State of the station. `conns` gives the number of connectors of EVSE 1, 2, ...; `resume` is the
variable ResumeTransactionsOnBoot; `diskOk` tells whether the database accepts writes at present.
`tx` is the transaction of each EVSE, `rows` the table TRANSACTIONS, `resetScheduled` and `resetEvses`
are the members of the same name (transaction.hpp), `remote` is `remote_start_id_per_evse`, a map sorted
by EVSE id, `out` everything that was sent or called so far. -/
structure State where
  conns : List Nat
  resume : Bool
  diskOk : Bool
  tx : Nat → Option Tx
  rows : List Row
  resetScheduled : Bool
  resetEvses : List Nat
  remote : List (Nat × Token × Int)
  out : List Out

/-- A station that was never used. -/
def clean (conns : List Nat) (resume : Bool) : State :=
  { conns := conns, resume := resume, diskOk := true, tx := fun _ => none, rows := [],
    resetScheduled := false, resetEvses := [], remote := [], out := [] }

/-- The EVSE ids 1, 2, ... over which `for (auto& evse : evse_manager)` runs
(lib/ocpp/v2/evse_manager.cpp l.16-56). -/
def evseIds (conns : List Nat) : List Nat := (List.range conns.length).map (· + 1)

/-- `EvseManager::get_evse` finds the EVSE (lib/ocpp/v2/evse_manager.cpp l.38-50); otherwise it throws. -/
def evseExists (conns : List Nat) (evse : Nat) : Bool := decide (1 ≤ evse ∧ evse ≤ conns.length)

/-- `id_connector_map.count(connector_id) != 0` (lib/ocpp/v2/evse.cpp l.61-64): connectors are numbered
from 1. -/
def connectorExists (conns : List Nat) (evse connector : Nat) : Bool :=
  decide (1 ≤ evse ∧ 1 ≤ connector ∧ connector ≤ conns.getD (evse - 1) 0)

/-- `has_active_transaction` (lib/ocpp/v2/evse.cpp l.340-342). -/
def active (s : State) (evse : Nat) : Bool := (s.tx evse).isSome

/-- `std::optional<Tx>` of one EVSE replaced. -/
def setTx (s : State) (evse : Nat) (t : Option Tx) : State :=
  { s with tx := fun e => if e = evse then t else s.tx e }

def emit (s : State) (o : Out) : State := { s with out := s.out ++ [o] }

/-- Can this row be inserted: TRANSACTION_ID and EVSE_ID are UNIQUE (4_up-transactions_db.sql l.2-3). -/
def canInsert (s : State) (evse : Nat) (txId : Str) : Bool :=
  s.diskOk && s.rows.all (fun r => r.evse != evse && r.txId != txId)

/-- The row of a transaction (`transaction_insert`, lib/ocpp/v2/database_handler.cpp l.662-684). -/
def rowOf (evse : Nat) (t : Tx) : Row :=
  { evse := evse, txId := t.id, connector := t.connector, seqNo := t.seqNo,
    charging := t.charging.getD Charging.idle, idTokenSent := t.idTokenSent }

/-- `transaction_insert`: without effect if a constraint fails. -/
def insertRow (evse : Nat) (t : Tx) (s : State) : State :=
  if canInsert s evse t.id then { s with rows := s.rows ++ [rowOf evse t] } else s

/-- `transaction_delete` (database_handler.cpp l.744-751). -/
def deleteRow (txId : Str) (s : State) : State :=
  if s.diskOk then { s with rows := s.rows.filter (fun r => r.txId != txId) } else s

/-- `transaction_get` (database_handler.cpp l.686-713). -/
def getRow (s : State) (evse : Nat) : Option Row := s.rows.find? (fun r => r.evse == evse)

/-- `Evse::delete_database_transaction` (lib/ocpp/v2/evse.cpp l.207-216). -/
def deleteOwn (evse : Nat) (s : State) : State :=
  match getRow s evse with
  | none => s
  | some r => deleteRow r.txId s

/-- The update statements of one row (database_handler.cpp l.715-742). -/
def updateRows (s : State) (txId : Str) (f : Row → Row) : State :=
  if s.diskOk then { s with rows := s.rows.map (fun r => if r.txId = txId then f r else r) } else s

/-- `get_seq_no` (lib/ocpp/v2/transaction.cpp l.23-34), up to the value it returns: the counter in memory
and, if the transaction is persisted, the one in the database. A failing update is only logged. -/
def bump (evse : Nat) (s : State) : State :=
  match s.tx evse with
  | none => s
  | some t =>
    let t' := { t with seqNo := t.seqNo + 1 }
    let s' := setTx s evse (some t')
    if t.dbEnabled then updateRows s' t.id (fun r => { r with seqNo := t'.seqNo }) else s'

/-- `set_id_token_sent` (lib/ocpp/v2/transaction.cpp l.47-56). -/
def markTokenSent (evse : Nat) (s : State) : State :=
  match s.tx evse with
  | none => s
  | some t =>
    let s' := setTx s evse (some { t with idTokenSent := true })
    if t.dbEnabled then updateRows s' t.id (fun r => { r with idTokenSent := true }) else s'

/-- The comparison inside `find_if` in `transaction_event_req`
(lib/ocpp/v2/functional_blocks/transaction.cpp l.221-236): the token id, compared case-insensitively, and
the EVSE, where 0 in the map matches every EVSE. -/
def remoteMatches (token : Option Token) (evse : Option Nat) (p : Nat × Token × Int) : Bool :=
  match token with
  | none => false
  | some k => ciEq p.2.1.id k.id && (p.1 == 0 || evse == some p.1)

/-- `transaction_event_req` (lib/ocpp/v2/functional_blocks/transaction.cpp l.195-250): an event with the
data of the transaction, the number taken by the preceding `get_seq_no` and, if a remote start waits for
this token, the trigger RemoteStart and the remote start id, which is then forgotten. -/
def send (evse : Nat) (type : EventType) (trigger : Trigger) (withEvse : Bool) (token : Option Token)
    (s : State) : State :=
  match s.tx evse with
  | none => s
  | some t =>
    let e : Event :=
      { type := type, txId := t.id, seqNo := t.seqNo - 1, trigger := trigger, charging := t.charging,
        remoteStartId := t.remoteStartId, evse := if withEvse then some evse else none, token := token,
        stopped := t.stopped }
    match s.remote.find? (remoteMatches token e.evse) with
    | none => emit s (Out.event e)
    | some p =>
      emit { s with remote := s.remote.filter (fun q => q.1 != p.1) }
        (Out.event { e with trigger := Trigger.remoteStart, remoteStartId := some p.2.2 })

/-- `remote_start_id_per_evse[evse_id] = {id_token, remote_start_id}`
(lib/ocpp/v2/functional_blocks/transaction.cpp l.253-256); a std::map is sorted by its key. -/
def putRemote (m : List (Nat × Token × Int)) (evse : Nat) (token : Token) (rid : Int) :
    List (Nat × Token × Int) :=
  m.filter (fun p => p.1 < evse) ++ [(evse, token, rid)] ++ m.filter (fun p => evse < p.1)

/-- The part of `on_transaction_finished` that deals with scheduled resets
(lib/ocpp/v2/functional_blocks/transaction.cpp l.142-189). -/
def afterFinish (evse : Nat) (s : State) : State :=
  if !s.resetScheduled then s
  else if s.resetEvses ≠ [] then
    if evse ∈ s.resetEvses then
      let rest := s.resetEvses.filter (fun e => e != evse)
      emit { s with resetEvses := rest, resetScheduled := !rest.isEmpty } (Out.reset (some evse) .onIdle)
    else s
  else if (evseIds s.conns).any (active s) then emit s (Out.unavailable evse)
  else emit { s with resetScheduled := false } (Out.reset none .onIdle)

/-- `schedule_reset` (lib/ocpp/v2/functional_blocks/transaction.cpp l.258-263). -/
def schedule (evse : Option Nat) (s : State) : State :=
  { s with resetScheduled := true,
           resetEvses := match evse with
             | none => s.resetEvses
             | some e => if e ∈ s.resetEvses then s.resetEvses else e :: s.resetEvses }

/-- The EVSEs with an active transaction that `handle_reset_req` takes into account
(lib/ocpp/v2/functional_blocks/provisioning.cpp l.461-478): the EVSE of the request if it has a
transaction, otherwise all EVSEs that have one. -/
def resetActive (s : State) (evse : Option Nat) : List Nat :=
  match evse with
  | some e => if active s e then [e] else (evseIds s.conns).filter (active s)
  | none => (evseIds s.conns).filter (active s)

/-- The set `evse_no_transactions` of the same lines. -/
def resetIdle (s : State) (evse : Option Nat) : List Nat :=
  match evse with
  | some e => if active s e then [] else (evseIds s.conns).filter (fun i => !active s i)
  | none => (evseIds s.conns).filter (fun i => !active s i)

/-- The answer of `handle_reset_req` (provisioning.cpp l.480-512). `allowed` is the answer of
`is_reset_allowed_callback`, `allowReset` the variable AllowReset of the EVSE, which counts only if the
request names an EVSE. -/
def resetStatus (s : State) (evse : Option Nat) (type : ResetType) (allowed : Bool)
    (allowReset : Option Bool) : ResetStatus :=
  if !(allowed && (evse.isNone || allowReset.getD true)) then .rejected
  else if !(resetActive s evse).isEmpty && type == .onIdle then .scheduled
  else .accepted

/-- Operations of the application and of the CSMS. -/
inductive Op where
  /-- `on_transaction_started`. -/
  | start (evse connector : Nat) (txId : Str) (trigger : Trigger) (token : Option Token)
      (remoteStartId : Option Int) (charging : Charging)
  /-- `on_authorized`. -/
  | authorized (evse : Nat) (token : Token)
  /-- `on_charging_state_changed`. -/
  | charging (evse : Nat) (state : Charging) (trigger : Trigger)
  /-- A meter value of the running transaction is due and not empty. -/
  | meter (evse : Nat)
  /-- TriggerMessage(TransactionEvent). -/
  | triggerMessage (evse : Option Nat)
  /-- `on_transaction_finished`. -/
  | finish (evse : Nat) (trigger : Trigger) (token : Option Token) (charging : Charging)
  /-- A Reset request. -/
  | resetReq (evse : Option Nat) (type : ResetType) (allowed : Bool) (allowReset : Option Bool)
  /-- `set_remote_start_id_for_evse`, called for an accepted RequestStartTransaction. -/
  | remoteStart (evse : Nat) (token : Token) (rid : Int)
  /-- ResumeTransactionsOnBoot is set. -/
  | setResume (b : Bool)
  /-- From now on database writes succeed or fail. -/
  | disk (ok : Bool)
  /-- The process ends and starts again, possibly with other EVSEs. -/
  | boot (conns : List Nat)

/-- The transaction created by `open_transaction` (lib/ocpp/v2/evse.cpp l.254-266), with the remote start
id that `on_transaction_started` adds before it sends the event (l.73). -/
def newTx (s : State) (connector : Nat) (txId : Str) (token : Option Token) (remoteStartId : Option Int)
    (charging : Charging) : Tx :=
  { id := txId, connector := connector, seqNo := 0, idTokenSent := token.isSome, charging := some charging,
    remoteStartId := remoteStartId, stopped := false, dbEnabled := s.resume }

/-- The database part of `open_transaction` (evse.cpp l.280-290): insert; if that fails, delete the row
of this EVSE and insert again. -/
def openSteps (s : State) (evse : Nat) (t : Tx) : List (State → State) :=
  if !s.resume then []
  else if canInsert s evse t.id then [insertRow evse t]
  else [deleteOwn evse, insertRow evse t]

/-- The second insert of `open_transaction` fails as well, so that it throws. -/
def openThrows (s : State) (evse : Nat) (t : Tx) : Bool :=
  s.resume && !canInsert s evse t.id && !canInsert (deleteOwn evse s) evse t.id

/-- One EVSE in `Evse::Evse` (lib/ocpp/v2/evse.cpp l.66-72 with l.183-216): resume the transaction found
in the database, or drop it. -/
def bootEvse (s : State) (evse : Nat) : State :=
  match getRow s evse with
  | none => s
  | some r =>
    if s.resume && connectorExists s.conns evse r.connector then
      setTx s evse (some { id := r.txId, connector := r.connector, seqNo := r.seqNo,
                           idTokenSent := r.idTokenSent, charging := some r.charging,
                           remoteStartId := none, stopped := false, dbEnabled := true })
    else deleteRow r.txId s

/-- Everything in memory is lost. -/
def powerOff (s : State) : State :=
  { s with tx := fun _ => none, resetScheduled := false, resetEvses := [], remote := [] }

/-- Restart with the given EVSEs. -/
def bootAll (conns : List Nat) (s : State) : State :=
  (evseIds conns).foldl bootEvse { powerOff s with conns := conns }

/-- `get_evse` throws for the EVSE of a Reset request (provisioning.cpp l.466). -/
def unknownEvse (conns : List Nat) : Option Nat → Bool
  | some e => !evseExists conns e
  | none => false

/-- The atomic steps of an operation, in order. -/
def steps (s : State) : Op → List (State → State)
  | .start evse connector txId trigger token rid charging =>
    if !evseExists s.conns evse || !connectorExists s.conns evse connector then [fun s => emit s .threw]
    else
      let t := newTx s connector txId token rid charging
      [fun s => setTx s evse (some t)] ++ openSteps s evse t ++
        (if openThrows s evse t then [fun s => emit s .threw]
         else [bump evse, send evse .started trigger true token])
  | .authorized evse token =>
    if !evseExists s.conns evse then [fun s => emit s .threw]
    else match s.tx evse with
      | none => []
      | some t =>
        if t.idTokenSent then []
        else [markTokenSent evse, bump evse, send evse .updated .authorized false (some token)]
  | .charging evse state trigger =>
    if !evseExists s.conns evse then [fun s => emit s .threw]
    else match s.tx evse with
      | none => []
      | some t =>
        if t.charging = some state then []
        else [fun s => setTx s evse (some { t with charging := some state }), bump evse,
              send evse .updated trigger false none]
  | .meter evse =>
    if !evseExists s.conns evse then [] else [bump evse, send evse .updated .meterValue false none]
  | .triggerMessage none =>
    (evseIds s.conns).flatMap (fun e => [bump e, send e .updated .trigger false none])
  | .triggerMessage (some evse) =>
    if !evseExists s.conns evse then [fun s => emit s .threw]
    else [bump evse, send evse .updated .trigger false none]
  | .finish evse trigger token charging =>
    if !evseExists s.conns evse then [fun s => emit s .threw]
    else match s.tx evse with
      | none => []
      | some t =>
        [fun s => setTx s evse (some { t with charging := some charging, stopped := true }), bump evse,
         send evse .ended trigger false (if trigger = .stopAuthorized then token else none),
         deleteRow t.id, fun s => setTx s evse none, afterFinish evse]
  | .resetReq evse type allowed allowReset =>
    if unknownEvse s.conns evse then [fun s => emit s .threw]
    else
      let status := resetStatus s evse type allowed allowReset
      (if status = .scheduled then [schedule evse] else []) ++
      [fun s => emit s (.resetAnswer status)] ++
      (if status = .rejected ∨ (resetActive s evse).isEmpty then []
       else if type = .immediate then (resetActive s evse).map (fun e => fun s => emit s (.stop e))
       else (resetIdle s evse).map (fun e => fun s => emit s (.unavailable e))) ++
      (if status = .accepted then [fun s => emit s (.reset evse .immediate)] else [])
  | .remoteStart evse token rid => [fun s => { s with remote := putRemote s.remote evse token rid }]
  | .setResume b => [fun s => { s with resume := b }]
  | .disk ok => [fun s => { s with diskOk := ok }]
  | .boot conns => [bootAll conns]

/-- The steps are carried out one after another. -/
def exec (s : State) (l : List (State → State)) : State := l.foldl (fun s f => f s) s

/-- What happens to the station: a complete operation, or an operation cut off by a power failure after
`k` of its steps, followed by a restart. -/
inductive Cmd where
  | op (o : Op)
  | cut (o : Op) (k : Nat)

def step (s : State) : Cmd → State
  | .op o => exec s (steps s o)
  | .cut o k => let s' := exec s ((steps s o).take k); bootAll s'.conns s'

def run (s : State) (h : List Cmd) : State := h.foldl step s

end Verif.Tx
