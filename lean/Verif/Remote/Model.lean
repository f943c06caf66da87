import Verif.ProfileStore.Model

/-!
# Requests of the CSMS to start, stop, unlock, trigger and reserve in OCPP 2.x

Models lib/ocpp/v2/functional_blocks/remote_transaction_control.cpp, functional_blocks/reservation.cpp, the functions of
lib/ocpp/v2/evse_manager.cpp and evse.cpp they use, and the check of the registration status in `message_callback`
(lib/ocpp/v2/charge_point.cpp l.953-1065).

Simplifications: the answers of the application (callbacks) are parameters; a transaction id, a token, a type of connector and
a measurand are numbers (equal numbers stand for strings that `CiString::operator==` holds equal); a request is one step; what a handler does
is the list of its effects in order. Charging profiles are those of `Verif.PS`.
-/

namespace Verif.Rem

/-- `ConnectorStatusEnum`: effective status of a connector. -/
inductive CStat
  | available | occupied | reserved | unavailable | faulted
deriving DecidableEq, Repr

/-- A connector: effective status and type (`none`: unknown). -/
structure Conn where
  stat : CStat := .available
  type : Option Nat := none
deriving DecidableEq, Repr

/-- An EVSE: id of the running transaction, connectors 1, 2, …, measurands of the last meter value. -/
structure Evse where
  tx : Option Nat := none
  conns : List Conn := [{}]
  meter : List (Option Nat) := []
deriving DecidableEq, Repr

/-- Effects of a handler. `reply` is the CALLRESULT, `error` a CALLERROR. -/
inductive Eff
  | remoteId (evse : Int) (token : Nat) (id : Int)
  | profile (evse : Int) (p : PS.Profile) (r : PS.Result)
  | start (evse : Option Int) (authorize : Bool)
  | stop (evse : Int)
  | unlock (evse connector : Int)
  | reserve
  | cancel (id : Int)
  | reply (accepted : Bool) (info : Option PS.Result)
  | error
deriving DecidableEq, Repr

/-- `EvseManager::get_evse` (evse_manager.cpp l.32-44): `none` is EvseOutOfRangeException. -/
def evse? (l : List Evse) (id : Int) : Option Evse := if id ≤ 0 then none else l[(id - 1).toNat]?

/-- `is_evse_connector_available` (remote_transaction_control.cpp l.35-56). -/
def usable (e : Evse) : Bool :=
  e.tx.isNone && e.conns.any (fun c => c.stat != .faulted && c.stat != .unavailable)

/-- RequestStartTransactionRequest. -/
structure StartReq where
  evse : Option Int
  token : Nat
  group : Option Nat := none
  id : Int
  profile : Option PS.Profile := none

/-- What the station asks the application and its configuration about a start: `reserved` is the answer ReservedForOtherToken
(with a reservation block), `authorize` the variable AuthorizeRemoteStart, `callback` the answer Accepted, `smart` the variable
SmartChargingCtrlrEnabled. -/
structure Ask where
  reserved : Int → Nat → Option Nat → Bool
  authorize : Option Bool := some true
  callback : Bool := true
  smart : Bool := true

/-- The part of `handle_remote_start_transaction_request` for a charging profile (remote_transaction_control.cpp l.163-192). -/
def startProfile (s : PS.State) (now : Int) (evse : Int) (smart : Bool) : Option PS.Profile → PS.State × Option PS.Result × List Eff
  | none => (s, none, [])
  | some p =>
    if smart && decide (p.purpose = .tx) then
      let r := PS.add s now evse p "CSO" .remoteStart
      (r.1, if r.2 = .valid then none else some r.2, [.profile evse p r.2])
    else (s, none, [])

/-- The end of the handler (l.203-210): the application is asked, the answer sent. A missing AuthorizeRemoteStart is a DeviceModelError. -/
def finishStart (q : StartReq) (a : Ask) (ok : Bool) (info : Option PS.Result) : List Eff :=
  if ok then
    match a.authorize with
    | none => [.error]
    | some b => [.start q.evse b, .reply a.callback info]
  else [.reply false info]

/-- `handle_remote_start_transaction_request` (remote_transaction_control.cpp l.122-211): profiles afterwards, effects. -/
def start (l : List Evse) (s : PS.State) (now : Int) (a : Ask) (q : StartReq) : PS.State × List Eff :=
  match q.evse with
  | none => (s, finishStart q a false none)
  | some id =>
    match evse? l id with
    | none => (s, [.error])
    | some e =>
      let ok := usable e && !a.reserved id q.token q.group
      let r := startProfile s now id a.smart q.profile
      (r.1, (if ok then [.remoteId id q.token q.id] else []) ++ r.2.2 ++ finishStart q a ok r.2.1)

/-- `EvseManager::get_transaction_evseid` (evse_manager.cpp l.84-94). -/
def findTx (tx : Nat) : List Evse → Int → Option Int
  | [], _ => none
  | e :: r, i => if e.tx = some tx then some i else findTx tx r (i + 1)

/-- `handle_remote_stop_transaction_request` (remote_transaction_control.cpp l.213-227). -/
def stop (l : List Evse) (callback : Int → Bool) (tx : Nat) : List Eff :=
  match findTx tx l 1 with
  | some id => [.stop id, .reply (callback id) none]
  | none => [.reply false none]

/-- `EvseManager::is_valid_evse` with a connector (evse_manager.cpp l.57-59, 109-113): `none` is an exception. -/
def validEvse (l : List Evse) (id connector : Int) : Option Bool :=
  if 0 ≤ id ∧ id ≤ (l.length : Int) then
    match evse? l id with
    | none => none
    | some e => some (decide (connector ≤ (e.conns.length : Int)))
  else some false

/-- `UnlockStatusEnum` as far as the station itself answers. -/
inductive Unlock
  | asked | ongoing | unknown | error
deriving DecidableEq, Repr

/-- `handle_unlock_connector` (remote_transaction_control.cpp l.99-120): the calls of the application and the answer; `asked` is the answer
of the application. -/
def unlock (l : List Evse) (id connector : Int) : List Eff × Unlock :=
  match validEvse l id connector with
  | none => ([], .error)
  | some false => ([], .unknown)
  | some true =>
    match evse? l id with
    | none => ([], .error)
    | some e => if e.tx.isNone then ([.unlock id connector], .asked) else ([], .ongoing)

/-! ## TriggerMessage -/

/-- `MessageTriggerEnum`. -/
inductive Trig
  | boot | logStatus | firmware | heartbeat | meterValues | signStation | signV2G | status | txEvent | signCombined | publishFirmware
  | signV2G20 | custom
deriving DecidableEq, Repr

/-- Messages sent because of TriggerMessage. `sign` is the call of `sign_certificate_req` (`Verif.Sec`). -/
inductive Msg
  | boot
  | logStatus (requestId : Option Int)
  | firmware (status : Nat) (requestId : Option Int)
  | heartbeat
  | meterValues (evse : Int) (measurands : List Nat)
  | sign (v2g : Bool)
  | status (evse connector : Int)
  | txEvent (evse : Int) (tx : Nat) (measurands : List Nat)
deriving DecidableEq, Repr

/-- `TriggerMessageStatusEnum`, and CALLERROR. -/
inductive TrigAnswer
  | accepted | rejected | notImplemented | error
deriving DecidableEq, Repr

/-- What is read: registration, AlignedDataMeasurands, SampledDataTxUpdatedMeasurands, V2GCertificateInstallationEnabled, the id of the upload
of a log in progress, status and id of the firmware update (0: Idle, 1: Installed). -/
structure Station where
  evses : List Evse
  registered : Bool := true
  aligned : List Nat := []
  updated : List Nat := []
  v2g : Bool := false
  upload : Option Int := none
  firmware : Nat := 0
  firmwareId : Int := 0
deriving DecidableEq, Repr

/-- `get_meter_value_with_measurands_applied` (lib/ocpp/v2/utils.cpp l.38-58): the measurands left. -/
def filterMeter (m : List (Option Nat)) (ms : List Nat) : List Nat := m.filterMap (fun o => o.bind (fun x => if ms.contains x then some x else none))

/-- `meter_value_has_any_measurand` (lib/ocpp/v2/utils.cpp l.31-36). -/
def hasAny (m : List (Option Nat)) (ms : List Nat) : Bool := m.any (fun o => ms.any (fun x => o == some x))

/-- The EVSEs a request is about (`send_evse_message`, remote_transaction_control.cpp l.339-347), with their ids. -/
def numbered : List Evse → Int → List (Int × Evse)
  | [], _ => []
  | e :: r, i => (i, e) :: numbered r (i + 1)

/-- EVSE and connector of a TriggerMessageRequest. -/
structure Target where
  evse : Option Int := none
  connector : Option Int := none
deriving DecidableEq, Repr

/-- `evse_ptr` (l.235-238): `none` is EvseOutOfRangeException. -/
def targets (s : Station) (t : Target) : Option (List (Int × Evse)) :=
  match t.evse with
  | none => some (numbered s.evses 1)
  | some id => (evse? s.evses id).map (fun e => [(id, e)])

/-- The status of the answer (`handle_trigger_message`, l.242-330). -/
def decideTrigger (s : Station) (t : Target) (ts : List (Int × Evse)) : Trig → TrigAnswer
  | .boot => if s.registered then .rejected else .accepted
  | .logStatus | .heartbeat | .firmware => .accepted
  | .meterValues => if ts.any (fun p => hasAny p.2.meter s.aligned) then .accepted else .rejected
  | .txEvent => if ts.any (fun p => p.2.tx.isSome) then .accepted else .rejected
  | .status =>
    match t.evse, t.connector, ts with
    | some _, some c, [(_, e)] => if 0 < c ∧ c ≤ (e.conns.length : Int) then .accepted else .rejected
    | _, _, _ => .rejected
  | .signStation => .accepted
  | .signV2G => if s.v2g then .accepted else .rejected
  | .publishFirmware | .signCombined | .signV2G20 | .custom => .notImplemented

/-- The meter values of one EVSE (l.355-364). -/
def meterMsg (s : Station) (p : Int × Evse) : List Msg :=
  let m := filterMeter p.2.meter s.aligned
  if m.isEmpty then [] else [.meterValues p.1 m]

/-- The transaction event of one EVSE (l.368-388). -/
def txMsg (s : Station) (p : Int × Evse) : List Msg :=
  match p.2.tx with
  | none => []
  | some tx => [.txEvent p.1 tx (filterMeter p.2.meter s.updated)]

/-- The messages sent after the answer Accepted (l.349-430); `on_firmware_status_notification_request`
(functional_blocks/firmware_update.cpp l.103-118). -/
def messages (s : Station) (t : Target) (ts : List (Int × Evse)) : Trig → List Msg
  | .boot => [.boot]
  | .meterValues => ts.flatMap (meterMsg s)
  | .txEvent => ts.flatMap (txMsg s)
  | .status =>
    match t.evse, t.connector with
    | some id, some c => [.status id c]
    | _, _ => []
  | .heartbeat => [.heartbeat]
  | .logStatus => [.logStatus s.upload]
  | .firmware => if s.firmware ≤ 1 then [.firmware 0 none] else [.firmware s.firmware (some s.firmwareId)]
  | .signStation => [.sign false]
  | .signV2G => [.sign true]
  | .publishFirmware | .signCombined | .signV2G20 | .custom => []

/-- `handle_trigger_message` (l.229-431): the answer, then the messages. -/
def trigger (s : Station) (t : Target) (m : Trig) : TrigAnswer × List Msg :=
  match targets s t with
  | none => (.error, [])
  | some ts =>
    let r := decideTrigger s t ts m
    (r, if r = .accepted then messages s t ts m else [])

/-! ## Reservations -/

/-- ReservationCtrlr: Available, Enabled, NonEvseSpecific; and whether the application has callbacks for reservations. -/
structure ResCfg where
  callback : Bool := true
  available : Bool := true
  enabled : Bool := true
  nonEvse : Bool := false
deriving DecidableEq, Repr

/-- `Evse::does_connector_exist` (lib/ocpp/v2/evse.cpp l.94-125). -/
def hasConnector (e : Evse) (type : Option Nat) : Bool :=
  if e.conns.isEmpty then false
  else match type with
    | none => true
    | some t => e.conns.any (fun c => c.type == none || c.type == some t)

/-- `handle_reserve_now_request` (functional_blocks/reservation.cpp l.65-168); `answer` is the answer Accepted of the application. -/
def reserveNow (l : List Evse) (c : ResCfg) (evse : Option Int) (type : Option Nat) (answer : Bool) : List Eff :=
  if !(c.callback && c.available && c.enabled) then [.reply false none]
  else match evse with
    | none =>
      if !c.nonEvse then [.reply false none]
      else if l.any (fun e => hasConnector e type) then [.reserve, .reply answer none]
      else [.reply false none]
    | some id =>
      match evse? l id with
      | none => [.reply false none]
      | some e => if hasConnector e type then [.reserve, .reply answer none] else [.reply false none]

/-- `handle_cancel_reservation_callback` (functional_blocks/reservation.cpp l.170-191). -/
def cancelReservation (c : ResCfg) (id : Int) (answer : Bool) : List Eff :=
  if !(c.callback && c.available && c.enabled) then [.reply false none]
  else [.cancel id, .reply answer none]

/-! ## Registration -/

/-- `RegistrationStatusEnum`. -/
inductive Reg
  | accepted | pending | rejected
deriving DecidableEq, Repr

/-- `MessageTypeId` of a received message. -/
inductive Frame
  | call | result | error
deriving DecidableEq, Repr

/-- Types of messages that are distinguished before the station is accepted. -/
inductive Kind
  | bootResponse | getVariables | setVariables | getBaseReport | getReport | notifyReportResponse | trigger (boot : Bool)
  | requestStart | requestStop | other
deriving DecidableEq, Repr

/-- What is done with a message: handled, answered Rejected, or answered with CALLERROR SecurityError. -/
inductive Gate
  | handled | refused | securityError
deriving DecidableEq, Repr

/-- `message_callback` (lib/ocpp/v2/charge_point.cpp l.953-1016). -/
def gate (r : Reg) (k : Kind) : Gate :=
  match r with
  | .accepted => .handled
  | .pending =>
    match k with
    | .bootResponse | .getVariables | .setVariables | .getBaseReport | .getReport | .notifyReportResponse | .trigger _ => .handled
    | .requestStart | .requestStop => .refused
    | .other => .securityError
  | .rejected =>
    match k with
    | .bootResponse => .handled
    | .trigger b => if b then .handled else .securityError
    | _ => .securityError

end Verif.Rem
