set_option linter.constructorNameAsVariable false

/-!
# Connectors of an OCPP 1.6 charge point

Model of `lib/ocpp/v16/charge_point_state_machine.cpp` and of the parts of
`lib/ocpp/v16/charge_point_impl.cpp` that drive it: sessions, transactions, reservations, errors,
ChangeAvailability, firmware updates, RemoteStartTransaction and status reports.
-/

namespace Verif.Conn16

/-- `ChargePointStatus` (include/ocpp/v16/ocpp_enums.hpp), the states of the state machine
(`using FSMState = ChargePointStatus`, charge_point_state_machine.hpp l.62). -/
inductive Status
  | available | preparing | charging | suspendedEV | suspendedEVSE | finishing | reserved
  | unavailable | faulted
  deriving DecidableEq, Repr

/-- `FSMEvent` (charge_point_state_machine.hpp l.19-38). -/
inductive Event
  | becomeAvailable | usageInitiated | startCharging | pauseChargingEV | pauseChargingEVSE
  | reserveConnector | transactionStopped | changeToUnavailable | reservationEnd
  | i1 | i2 | i3 | i4 | i5 | i6 | i7 | i8
  deriving DecidableEq, Repr

/-- `FSM_DEF` (charge_point_state_machine.cpp l.14-86): the transition table used for every
connector. `FSM_DEF_CONNECTOR_ZERO` (l.89-103) is defined but never used. -/
def next : Status → Event → Option Status
  | .available, .usageInitiated => some .preparing
  | .available, .startCharging => some .charging
  | .available, .pauseChargingEV => some .suspendedEV
  | .available, .pauseChargingEVSE => some .suspendedEVSE
  | .available, .reserveConnector => some .reserved
  | .available, .changeToUnavailable => some .unavailable
  | .preparing, .becomeAvailable => some .available
  | .preparing, .startCharging => some .charging
  | .preparing, .pauseChargingEV => some .suspendedEV
  | .preparing, .pauseChargingEVSE => some .suspendedEVSE
  | .preparing, .transactionStopped => some .finishing
  | .charging, .becomeAvailable => some .available
  | .charging, .pauseChargingEV => some .suspendedEV
  | .charging, .pauseChargingEVSE => some .suspendedEVSE
  | .charging, .transactionStopped => some .finishing
  | .charging, .changeToUnavailable => some .unavailable
  | .suspendedEV, .becomeAvailable => some .available
  | .suspendedEV, .startCharging => some .charging
  | .suspendedEV, .pauseChargingEVSE => some .suspendedEVSE
  | .suspendedEV, .transactionStopped => some .finishing
  | .suspendedEV, .changeToUnavailable => some .unavailable
  | .suspendedEVSE, .becomeAvailable => some .available
  | .suspendedEVSE, .startCharging => some .charging
  | .suspendedEVSE, .pauseChargingEV => some .suspendedEV
  | .suspendedEVSE, .transactionStopped => some .finishing
  | .suspendedEVSE, .changeToUnavailable => some .unavailable
  | .finishing, .becomeAvailable => some .available
  | .finishing, .usageInitiated => some .preparing
  | .finishing, .changeToUnavailable => some .unavailable
  | .reserved, .becomeAvailable => some .available
  | .reserved, .usageInitiated => some .preparing
  | .reserved, .changeToUnavailable => some .unavailable
  | .reserved, .reservationEnd => some .available
  | .unavailable, .becomeAvailable => some .available
  | .unavailable, .usageInitiated => some .preparing
  | .unavailable, .startCharging => some .charging
  | .unavailable, .pauseChargingEV => some .suspendedEV
  | .unavailable, .pauseChargingEVSE => some .suspendedEVSE
  | .faulted, .i1 => some .available
  | .faulted, .i2 => some .preparing
  | .faulted, .i3 => some .charging
  | .faulted, .i4 => some .suspendedEV
  | .faulted, .i5 => some .suspendedEVSE
  | .faulted, .i6 => some .finishing
  | .faulted, .i7 => some .reserved
  | .faulted, .i8 => some .unavailable
  | _, _ => none

/-- `ErrorInfo` (charge_point_state_machine.hpp l.41-58). Error code 0 is `NoError`. The texts
(info, vendor id, vendor error code) are left out. -/
structure Err where
  uuid : String
  code : Nat
  fault : Bool
  ts : Int
  deriving DecidableEq, Repr

/-- `ChargePointFSM` (charge_point_state_machine.hpp l.68-98): the state and the active errors.
The unordered map of errors is a list in order of insertion; the order is observable only through
`latest`, for errors with equal time stamps. -/
structure Fsm where
  state : Status
  errors : List Err
  deriving DecidableEq, Repr

/-- A call of the status notification callback: status and error code. -/
structure Note where
  status : Status
  code : Nat
  deriving DecidableEq, Repr

/-- `is_faulted` (charge_point_state_machine.cpp l.166-171). -/
def isFaulted (m : Fsm) : Bool := m.errors.any (·.fault)

/-- `get_state` (charge_point_state_machine.cpp l.159-164). -/
def visible (m : Fsm) : Status := if isFaulted m then .faulted else m.state

/-- `get_latest_error` (charge_point_state_machine.cpp l.173-185). -/
def latest (m : Fsm) : Option Err :=
  match m.errors with
  | [] => none
  | e :: es => some (es.foldl (fun l x => if x.ts > l.ts then x else l) e)

/-- The error code of the latest error or `NoError`
(`get_latest_error().value_or(ErrorInfo("", NoError, false))`). -/
def latestCode (m : Fsm) : Nat := match latest m with | none => 0 | some e => e.code

/-- The inputs of the state machine. -/
inductive FOp
  | event (e : Event)
  | error (e : Err)
  | clear (uuid : String)
  | clearAll
  | trigger
  deriving DecidableEq, Repr

/-- `handle_event` (l.187-209), `handle_error` (l.211-227), `handle_error_cleared` (l.229-265),
`handle_all_errors_cleared` (l.267-272), `trigger_status_notification` (l.274-284) of
charge_point_state_machine.cpp: the new state machine and the call of the callback, if any. -/
def fstep (m : Fsm) : FOp → Fsm × Option Note
  | .event ev =>
    match next m.state ev with
    | none => (m, none)
    | some st =>
      let m' := { m with state := st }
      (m', if isFaulted m' then none else some ⟨st, latestCode m'⟩)
  | .error e =>
    if m.errors.any (·.uuid == e.uuid) then (m, none)
    else
      let m' := { m with errors := m.errors ++ [e] }
      (m', some ⟨if isFaulted m' then .faulted else m'.state, e.code⟩)
  | .clear u =>
    if !m.errors.any (·.uuid == u) then (m, none)
    else
      let m' := { m with errors := m.errors.filter (fun e => !(e.uuid == u)) }
      (m', if isFaulted m' then none else some ⟨m'.state, latestCode m'⟩)
  | .clearAll => ({ m with errors := [] }, some ⟨m.state, 0⟩)
  | .trigger => (m, some ⟨if isFaulted m then .faulted else m.state, latestCode m⟩)

/-- A history of inputs of one state machine. -/
def frun (m : Fsm) (ops : List FOp) : Fsm := ops.foldl (fun m o => (fstep m o).1) m

/-- `AvailabilityChange`: an entry of `change_availability_queue`. -/
structure Queued where
  operative : Bool
  persist : Bool
  deriving DecidableEq, Repr

/-- `AvailabilityStatus`. -/
inductive Answer
  | accepted | rejected | scheduled
  deriving DecidableEq, Repr

/-- Observable effects: answers to ChangeAvailability, the callbacks enabling and disabling an
EVSE, the callback telling that all connectors are unavailable, StatusNotification requests handed
to the message queue, answers to RemoteStartTransaction, the token handed to the application and
the transaction profile stored by a remote start. -/
inductive Out
  | answer (a : Answer)
  | enable (c : Nat)
  | disable (c : Nat)
  | allUnavailable
  | status (c : Nat) (n : Note)
  | remote (accepted : Bool)
  | token (cs : List Nat) (prevalidated : Bool)
  | profile (c : Nat)
  deriving DecidableEq, Repr

/-- The part of `ChargePointImpl` that concerns connectors. `fsm` are the state machines of the
connectors 0 to `n`, `tx` says for which connectors `transaction_active`, `waiting` lists the
connectors of the stopped transactions whose StopTransaction.conf is outstanding, `queue` is
`change_availability_queue`, `db` the table CONNECTORS (true is Operative), `timer` what the status
notification timer of a connector (`status_notification_timers`) will send, `fwPending` is
`firmware_update_is_pending`. -/
structure State where
  n : Nat
  fsm : Nat → Fsm
  tx : Nat → Bool
  waiting : List Nat
  queue : Nat → Option Queued
  db : Nat → Bool
  timer : Nat → Option Note
  fwPending : Bool
  out : List Out

/-- Record an effect. -/
def emit (s : State) (o : Out) : State := { s with out := s.out ++ [o] }

/-- Pointwise update. -/
def upd {α : Type} (f : Nat → α) (c : Nat) (x : α) : Nat → α := fun i => if i = c then x else f i

/-- `submit_event`, `submit_error`, `submit_error_cleared`, `submit_all_errors_cleared`
(charge_point_state_machine.cpp l.325-360) with the callback registered in the constructor of
`ChargePointImpl` (charge_point_impl.cpp l.137-153): the status timer of the connector is restarted
with the new report. Inputs for connectors that do not exist are ignored. The meter values a status
change can trigger (l.155-…) are left out. -/
def submit (c : Nat) (o : FOp) (s : State) : State :=
  if c ≤ s.n then
    let r := fstep (s.fsm c) o
    let s' := { s with fsm := upd s.fsm c r.1 }
    match r.2 with
    | none => s'
    | some note => { s' with timer := upd s'.timer c (some note) }
  else s

/-- `ChargePointStates::get_state` (charge_point_state_machine.cpp l.380-391). -/
def getState (s : State) (c : Nat) : Status := if c ≤ s.n then visible (s.fsm c) else .unavailable

/-- `trigger_status_notifications` (charge_point_state_machine.cpp l.371-377): all connectors,
beginning with connector 0. -/
def triggerAll (s : State) : State := (List.range (s.n + 1)).foldl (fun s c => submit c .trigger s) s

/-- The body of the loop of `execute_connectors_availability_change` (charge_point_impl.cpp
l.1798-1823). -/
def executeOne (op persist : Bool) (s : State) (c : Nat) : State :=
  let s1 := if persist then { s with db := upd s.db c op } else s
  if op then emit (if c = 0 then submit 0 (.event .becomeAvailable) s1 else s1) (.enable c)
  else emit (if c = 0 then submit 0 (.event .changeToUnavailable) s1 else s1) (.disable c)

/-- `execute_connectors_availability_change` (charge_point_impl.cpp l.1795-1824). The callbacks are
registered; database errors are left out. -/
def execute (cs : List Nat) (op persist : Bool) (s : State) : State := cs.foldl (executeOne op persist) s

/-- `execute_queued_availability_change` (charge_point_impl.cpp l.1826-1843). -/
def executeQueued (c : Nat) (s : State) : State :=
  match s.queue c with
  | none => s
  | some q => execute [c] q.operative q.persist { s with queue := upd s.queue c none }

/-- `should_be_scheduled_func` (charge_point_impl.cpp l.1742-1745). -/
def mustWait (s : State) (c : Nat) : Bool := s.tx c || getState s c == .preparing

/-- The connectors 1 to `n`. -/
def connectors (n : Nat) : List Nat := (List.range n).map (· + 1)

/-- The part of `preprocess_change_availability_request` that stores the queue in the database
(charge_point_impl.cpp l.1774-1782). -/
def storeQueue (s : State) : State :=
  { s with db := fun c => match s.queue c with | none => s.db c | some q => q.operative }

/-- The connectors a request names among the connectors 1 to `n`: one, or all of them for
connector 0 (charge_point_impl.cpp l.1751-1771). -/
def named (n : Nat) (c : Nat) : List Nat := if c = 0 then connectors n else [c]

/-- `handleChangeAvailabilityRequest` (charge_point_impl.cpp l.2001-2019) with
`preprocess_change_availability_request` (l.1735-1793). -/
def change (ci : Int) (op : Bool) (s : State) : State :=
  if ci ≤ (s.n : Int) ∧ ci ≥ 0 then
    let c := ci.toNat
    let wait := (named s.n c).filter (mustWait s)
    let now := (if c = 0 then [0] else []) ++ (named s.n c).filter (fun x => !mustWait s x)
    let s1 := storeQueue { s with queue := fun x => if x ∈ wait then some ⟨op, true⟩ else s.queue x }
    let s2 := emit s1 (.answer (if wait.isEmpty then .accepted else .scheduled))
    execute now op true s2
  else emit s (.answer .rejected)

/-- `change_all_connectors_to_unavailable_for_firmware_update` (charge_point_impl.cpp
l.1213-1245). -/
def firmwarePrepare (s : State) : State :=
  let busy := (connectors s.n).filter s.tx
  let idle := (connectors s.n).filter (fun c => !s.tx c)
  let s1 := { s with queue := fun c => if c ∈ busy then some ⟨false, false⟩ else s.queue c }
  let s2 := idle.foldl (fun s c => emit s (.disable c)) s1
  if busy.isEmpty then emit s2 .allUnavailable else s2

/-- The statuses of a firmware update that matter here (`FirmwareStatusNotification`): the update is
ready to be installed (Downloaded for an unsigned update, SignatureVerified for a signed one), it
failed before the installation (DownloadFailed; InvalidSignature of a signed update), the
installation failed (InstallationFailed; InstallVerificationFailed of a signed update), it
succeeded, or something else (Downloading, Installing, ...). -/
inductive Firmware
  | ready | failed | installFailed | installed | other
  deriving DecidableEq, Repr

/-- `on_firmware_update_status_notification` (charge_point_impl.cpp l.4623-4675) with
`firmware_status_notification` (l.4692-4716) or `signed_firmware_update_status_notification`
(l.3076-3110): the flag, the preparation while the flag is set, and the connectors enabled again at
the end. -/
def firmware (st : Firmware) (s : State) : State :=
  let s1 := match st with
    | .ready => { s with fwPending := true }
    | .failed | .installFailed => { s with fwPending := false }
    | .installed | .other => s
  let s2 := if s1.fwPending then firmwarePrepare s1 else s1
  match st with
  | .installFailed | .installed =>
    ((List.range (s2.n + 1)).filter s2.db).foldl
      (fun s c => emit (if c = 0 then submit 0 (.event .becomeAvailable) s else s) (.enable c)) s2
  | _ => s2

/-- A RemoteStartTransaction request with what the handler asks the environment: the connector, the
profile (is it a TxProfile, does `validate_profile` accept it), the connectors reserved for another
token (the answers ReservedForOtherToken of `is_token_reserved_for_connector_callback`) and
`AuthorizeRemoteTxRequests`. -/
structure Remote where
  connector : Option Int
  profile : Option (Bool × Bool)
  otherToken : List Nat
  authorize : Bool
  deriving DecidableEq, Repr

/-- One round of the loop over the connectors in `handleRemoteStartTransactionRequest`
(charge_point_impl.cpp l.2162-2193): may a transaction be started on the connector? -/
def obtainable (s : State) (r : Remote) (c : Nat) : Bool :=
  if getState s c = .unavailable ∨ getState s c = .faulted then false
  else if s.tx c ∨ getState s c = .finishing then false
  else if getState s c = .reserved ∧ c ∈ r.otherToken then false
  else true

/-- The loop with its flag (charge_point_impl.cpp l.2160-2194): it stops at the first connector that
can be used; the flag keeps the value of the last round. -/
def obtainLoop (s : State) (r : Remote) : Bool → List Nat → Bool
  | flag, [] => flag
  | _, c :: cs => if obtainable s r c then true else obtainLoop s r false cs

/-- The end of `handleRemoteStartTransactionRequest` (charge_point_impl.cpp l.2226-2249): the answer
and the token handed to the application. -/
def remoteAccept (cs : List Nat) (r : Remote) (s : State) : State :=
  emit (emit s (.remote true)) (.token cs (!r.authorize))

/-- The treatment of the profile (charge_point_impl.cpp l.2204-2224). -/
def remoteProfile (cs : List Nat) (r : Remote) (s : State) : State :=
  match r.profile with
  | none => remoteAccept cs r s
  | some (isTx, valid) =>
    match r.connector with
    | none => emit s (.remote false)
    | some ci =>
      if isTx && valid then remoteAccept cs r (emit s (.profile ci.toNat)) else emit s (.remote false)

/-- `handleRemoteStartTransactionRequest` (charge_point_impl.cpp l.2135-2250). -/
def remoteStart (r : Remote) (s : State) : State :=
  match r.connector with
  | some ci =>
    if ci ≤ 0 ∨ ci > (s.n : Int) then emit s (.remote false)
    else if !obtainLoop s r true [ci.toNat] then emit s (.remote false)
    else remoteProfile [ci.toNat] r s
  | none =>
    if !obtainLoop s r true (connectors s.n) then emit s (.remote false)
    else remoteProfile (connectors s.n) r s

/-- `init_state_machine` with an empty map (charge_point_impl.cpp l.365-388) after a restart: states
and callbacks from the database, everything in memory is forgotten. The table CONNECTORS has exactly
the rows 0 to `n`; resumed transactions are left out. -/
def boot (s : State) : State :=
  let s1 := { s with
    fsm := fun c => ⟨if s.db c then .available else .unavailable, []⟩
    tx := fun _ => false, waiting := [], queue := fun _ => none, timer := fun _ => none
    fwPending := false }
  (List.range (s.n + 1)).foldl (fun s c => emit s (if s.db c then .enable c else .disable c)) s1

/-- The operations of the API and the requests of the CSMS. -/
inductive Op
  /-- `on_session_started`; the flag says that the reason is Authorized -/
  | sessionStarted (c : Nat) (authorized : Bool)
  /-- `on_session_stopped` -/
  | sessionStopped (c : Nat)
  /-- `on_transaction_started` -/
  | txStarted (c : Nat)
  /-- `on_transaction_stopped`; the flag says that the reason is EVDisconnected -/
  | txStopped (c : Nat) (evDisconnected : Bool)
  /-- StopTransaction.conf for a transaction of the connector -/
  | stopConf (c : Nat)
  /-- `on_suspend_charging_ev`, `on_suspend_charging_evse`, `on_resume_charging` -/
  | suspendEV (c : Nat)
  | suspendEVSE (c : Nat)
  | resume (c : Nat)
  /-- `on_error`, `on_error_cleared`, `on_all_errors_cleared` -/
  | error (c : Nat) (e : Err)
  | clear (c : Nat) (uuid : String)
  | clearAll (c : Nat)
  /-- `on_reservation_start`, `on_reservation_end`, `on_enabled`, `on_disabled`,
  `on_plugin_timeout` -/
  | reservationStart (c : Nat)
  | reservationEnd (c : Nat)
  | enabled (c : Nat)
  | disabled (c : Nat)
  | plugTimeout (c : Nat)
  /-- ChangeAvailability request or `on_change_availability` -/
  | change (c : Int) (operative : Bool)
  /-- RemoteStartTransaction request -/
  | remote (r : Remote)
  /-- `on_firmware_update_status_notification` -/
  | firmware (st : Firmware)
  /-- the status timer of the connector expires -/
  | timer (c : Nat)
  /-- TriggerMessage request for StatusNotification of one connector -/
  | trigger (c : Nat)
  /-- BootNotification was accepted, or the connection is back -/
  | reportAll
  /-- power loss or shutdown, and restart -/
  | restart
  deriving DecidableEq, Repr

/-- The status at the start of a transaction: a reserved connector is in use now
(`on_transaction_started`, charge_point_impl.cpp l.4371-4373). -/
def useReserved (c : Nat) (s : State) : State :=
  if getState s c = .reserved then submit c (.event .usageInitiated) s else s

/-- The status at the end of a transaction (`on_transaction_stopped`, charge_point_impl.cpp
l.4444-4447). -/
def finish (c : Nat) (evDisconnected : Bool) (s : State) : State :=
  if evDisconnected then s else submit c (.event .transactionStopped) s

/-- The part of `handleStopTransactionResponse` (charge_point_impl.cpp l.2402-2429) that executes a
queued change for the connector of the transaction, if the transaction is known. -/
def confirmed (c : Nat) (s : State) : State :=
  if c ∈ s.waiting then executeQueued c { s with waiting := s.waiting.erase c } else s

/-- One operation. Cited functions of charge_point_impl.cpp: on_session_started l.4334-4350 (only
the status), on_session_stopped l.4353-4364, on_transaction_started l.4366-4373 and
start_transaction (only the status and the active transaction), on_transaction_stopped l.4421-4458
and stop_transaction l.4460-4515 (only status, active transaction and outstanding confirmation; an
unknown transaction is ignored), handleStopTransactionResponse l.2393-2436 (availability and
firmware; the order of independent assignments is not kept), on_suspend_charging_ev to on_all_errors_cleared l.4585-4607, on_reservation_start to
on_plugin_timeout l.4881-4900, the timer callback l.148-153, TriggerMessage l.2682-2687,
handleBootNotificationResponse l.1699 and connected_callback l.1321. The calls for transactions of
connectors that do not exist throw in the code (`active_transactions.at`); here they have no
effect. -/
def step (s : State) : Op → State
  | .sessionStarted c authorized =>
    if (getState s c = .reserved ∧ authorized = true) ∨ getState s c ≠ .reserved then
      submit c (.event .usageInitiated) s
    else s
  | .sessionStopped c =>
    let s1 := executeQueued c s
    if getState s1 c ≠ .reserved ∧ getState s1 c ≠ .unavailable then
      submit c (.event .becomeAvailable) s1
    else s1
  | .txStarted c =>
    if 1 ≤ c ∧ c ≤ s.n then
      useReserved c { s with tx := upd s.tx c true }
    else s
  | .txStopped c evDisconnected =>
    if s.tx c then
      finish c evDisconnected { s with waiting := s.waiting ++ [c], tx := upd s.tx c false }
    else s
  | .stopConf c =>
    let s1 := confirmed c s
    if s1.fwPending then firmwarePrepare s1 else s1
  | .suspendEV c => submit c (.event .pauseChargingEV) s
  | .suspendEVSE c => submit c (.event .pauseChargingEVSE) s
  | .resume c => submit c (.event .startCharging) s
  | .error c e => submit c (.error e) s
  | .clear c u => submit c (.clear u) s
  | .clearAll c => submit c .clearAll s
  | .reservationStart c => submit c (.event .reserveConnector) s
  | .reservationEnd c => submit c (.event .reservationEnd) s
  | .enabled c => submit c (.event .becomeAvailable) s
  | .disabled c => submit c (.event .changeToUnavailable) s
  | .plugTimeout c => submit c (.event .transactionStopped) s
  | .change c op => change c op s
  | .remote r => remoteStart r s
  | .firmware st => firmware st s
  | .timer c =>
    match s.timer c with
    | none => s
    | some note => emit { s with timer := upd s.timer c none } (.status c note)
  | .trigger c => if c ≤ s.n then emit s (.status c ⟨visible (s.fsm c), latestCode (s.fsm c)⟩) else s
  | .reportAll => triggerAll s
  | .restart => boot s

/-- A history. -/
def run (s : State) (ops : List Op) : State := ops.foldl step s

/-- A charge point with `n` connectors after its first start (`init_connector_table`,
database_handler.cpp l.31-46: every connector is Operative). -/
def clean (n : Nat) : State :=
  { n := n, fsm := fun _ => ⟨.available, []⟩, tx := fun _ => false, waiting := []
    queue := fun _ => none, db := fun _ => true, timer := fun _ => none, fwPending := false
    out := [] }

end Verif.Conn16
