import Verif.DeviceModel.Lemmas

/-!
# Variables that take effect when they are set (OCPP 2.x)

Model of `Provisioning::handle_variable_changed` and `handle_variables_changed` (lib/ocpp/v2/functional_blocks/provisioning.cpp l.539-628), of the
settings of the message queue, the heartbeat timer, the timer of clock-aligned meter values and the options of the connection, which are copies
of values of the device model. The device model is that of `Verif.DeviceModel`.

Simplifications: timers are their periods; of the options of the connection only those are modelled that can be changed without a new connection,
the password and the interface; monitors and logging are left out. `none` is an exception that leaves the function.
-/
set_option linter.constructorNameAsVariable false

namespace Verif.Effects

open Verif.DM

/-- A component and variable: `ComponentVariable` (with a variable), include/ocpp/v2/ctrlr_component_variables.hpp. -/
abbrev Cv := Comp × Vbl

/-- A component without instance and EVSE, and a variable: the entries of lib/ocpp/v2/ctrlr_component_variables.cpp. -/
def cv (c v : String) (inst : Option String := none) : Cv := (⟨c.toList, none, none⟩, ⟨v.toList, inst.map String.toList⟩)

/-- lib/ocpp/v2/ctrlr_component_variables.cpp l.362, 789-813, 843-867, 945, 993 and, for the interface, IFace of InternalCtrlr (l.238). -/
def alignedInterval : Cv := cv "AlignedDataCtrlr" "Interval"
def heartbeatInterval : Cv := cv "OCPPCommCtrlr" "HeartbeatInterval"
def messageTimeout : Cv := cv "OCPPCommCtrlr" "MessageTimeout" (some "Default")
def messageAttemptInterval : Cv := cv "OCPPCommCtrlr" "MessageAttemptInterval" (some "TransactionEvent")
def messageAttempts : Cv := cv "OCPPCommCtrlr" "MessageAttempts" (some "TransactionEvent")
def connectionAttempts : Cv := cv "OCPPCommCtrlr" "NetworkProfileConnectionAttempts"
def randomRange : Cv := cv "OCPPCommCtrlr" "RetryBackOffRandomRange"
def repeatTimes : Cv := cv "OCPPCommCtrlr" "RetryBackOffRepeatTimes"
def waitMinimum : Cv := cv "OCPPCommCtrlr" "RetryBackOffWaitMinimum"
def pingInterval : Cv := cv "OCPPCommCtrlr" "WebSocketPingInterval"
def basicAuthPassword : Cv := cv "SecurityCtrlr" "BasicAuthPassword"
def securityProfile : Cv := cv "SecurityCtrlr" "SecurityProfile"
def interface : Cv := cv "InternalCtrlr" "IFace"

/-- `get_optional_value<std::string>`, include/ocpp/v2/device_model.hpp l.197-209: also values that the CSMS may not read. -/
def getStr (dm : DM) (x : Cv) : Option Str :=
  match requestValue dm x.1 x.2 .actual true with
  | (.accepted, v) => v
  | _ => none

/-- `get_value<int>`, l.173-189, with `to_specific_type<int>`, `std::stoi`. -/
def getInt (dm : DM) (x : Cv) : Option Int := (getStr dm x).bind stoi

/-- `CiString::operator==` within `std::optional`. -/
def ciEq : Option Str → Option Str → Bool
  | none, none => true
  | some a, some b => a.map Char.toLower == b.map Char.toLower
  | _, _ => false

/-- `component_variable == x`, comparators.hpp l.22-24, 36-38, 47-49. -/
def is (d : SetData) (x : Cv) : Bool :=
  d.comp.name == x.1.name && ciEq d.comp.inst x.1.inst && d.comp.evse == x.1.evse && d.var.name == x.2.name && ciEq d.var.inst x.2.inst

/-- The five options that can be changed without a new connection, provisioning.cpp l.719-728. -/
def options : List Cv := [randomRange, repeatTimes, waitMinimum, connectionAttempts, pingInterval]

/-- The options of the connection: `WebsocketConnectionOptions`, include/ocpp/common/websocket/websocket_base.hpp. -/
structure Opts where
  key : Option Str
  nums : List Int
  iface : Option Str
deriving DecidableEq, Repr

/-- `get_ws_connection_options`, connectivity_manager.cpp l.325-380. -/
def readOpts (dm : DM) : Option Opts := (options.mapM (getInt dm)).map fun n => ⟨getStr dm basicAuthPassword, n, getStr dm interface⟩

/-- The network profile of the active slot: usable, with an invalid URL (no options), or missing (an exception). -/
inductive Slot
  | usable
  | invalid
  | missing
deriving DecidableEq, Repr

/-- The station. -/
structure St where
  dm : DM
  registered : Bool := false
  attempts : Int                 -- `config.transaction_message_attempts` of the queue
  interval : Int                 -- `config.transaction_message_retry_interval`
  timeout : Int                  -- `config.message_timeout_seconds`
  heartbeat : Option Int := none -- period of the heartbeat timer, if it runs
  aligned : Option Int := none   -- period of the timer of clock-aligned meter values, if it runs
  ws : Option Opts := none       -- the connection
  restarts : Nat := 0            -- how often it was closed to be opened anew

/-- The settings of the queue when the station is made, charge_point.cpp l.515-527. -/
def start (dm : DM) : Option St := do
  let a ← getInt dm messageAttempts
  let i ← getInt dm messageAttemptInterval
  let t ← getInt dm messageTimeout
  return { dm := dm, attempts := a, interval := i, timeout := t }

/-- `set_websocket_authorization_key`, connectivity_manager.cpp l.37-42. -/
def setKey (s : St) (key : Str) : St :=
  match s.ws with
  | none => s
  | some w => { s with ws := some { w with key := some key }, restarts := s.restarts + 1 }

/-- BasicAuthPassword, provisioning.cpp l.547-552. -/
def onPassword (d : SetData) (s : St) : Option St :=
  if is d basicAuthPassword then do
    let p ← getInt s.dm securityProfile
    return if p < 3 then setKey s d.value else s
  else some s

/-- HeartbeatInterval, l.553-563. The exceptions of `std::stoi` are caught. -/
def onHeartbeat (d : SetData) (s : St) : Option St :=
  if is d heartbeatInterval && s.registered then
    match stoi d.value with
    | none => some s
    | some n => some { s with heartbeat := some n }
  else some s

/-- `update_aligned_data_interval`, meter_values.cpp l.22-30. -/
def period (n : Int) : Option Int := if n ≤ 0 then none else some n

/-- `update_aligned_data_interval`. -/
def updateAligned (s : St) : Option St := do
  let n ← getInt s.dm alignedInterval
  return { s with aligned := period n }

/-- AlignedDataInterval, l.564-566. -/
def onAligned (d : SetData) (s : St) : Option St := if is d alignedInterval then updateAligned s else some s

/-- `set_websocket_connection_options_without_reconnect`, connectivity_manager.cpp l.44-56. -/
def setOptions (slot : Slot) (s : St) : Option St :=
  match slot with
  | .missing => none
  | .invalid => some s
  | .usable => do
    let o ← readOpts s.dm
    return { s with ws := s.ws.map fun _ => o }

/-- The options of the connection, l.568-571. -/
def onOptions (slot : Slot) (d : SetData) (s : St) : Option St :=
  if options.any (is d) then setOptions slot s else some s

/-- MessageAttemptInterval, MessageAttempts and MessageTimeout, l.573-592. -/
def onInterval (d : SetData) (s : St) : Option St :=
  if is d messageAttemptInterval then (getInt s.dm messageAttemptInterval).map fun n => { s with interval := n } else some s
def onAttempts (d : SetData) (s : St) : Option St :=
  if is d messageAttempts then (getInt s.dm messageAttempts).map fun n => { s with attempts := n } else some s
def onTimeout (d : SetData) (s : St) : Option St :=
  if is d messageTimeout then (getInt s.dm messageTimeout).map fun n => { s with timeout := n } else some s

/-- `handle_variable_changed`, l.539-596. -/
def changed (slot : Slot) (s : St) (d : SetData) : Option St :=
  if typeOr d.type ≠ .actual then some s
  else do
    let s ← onPassword d s
    let s ← onHeartbeat d s
    let s ← onAligned d s
    let s ← onOptions slot d s
    let s ← onInterval d s
    let s ← onAttempts d s
    onTimeout d s

/-- `handle_variables_changed`, l.598-628, for the accepted items. -/
def handleAll (slot : Slot) : St → List SetData → Option St
  | s, [] => some s
  | s, d :: l => (changed slot s d).bind fun s' => handleAll slot s' l

/-- SetVariables of the CSMS (`ro` false), l.227-244, and of the application (`ro` true), l.141-147. The items are handled in the order of
the map of results; this order is not modelled. -/
def request (guard : DM → SetData → Bool) (ro : Bool) (slot : Slot) (s : St) (ds : List SetData) : Option St :=
  let x := setVariables guard ro s.dm [] ds
  handleAll slot { s with dm := x.1 } ((x.2.filter (fun p => p.2.status == .accepted)).map (·.1))

/-- The digits of a number: `std::to_string` for numbers that are not negative. -/
def digits (n : Nat) : Str := if h : n < 10 then [Char.ofNat (48 + n)] else digits (n / 10) ++ [Char.ofNat (48 + n % 10)]
termination_by n
decreasing_by omega

/-- `handle_boot_notification_response`, l.172-225: the parts about timers. -/
def boot (accepted : Bool) (n : Int) (s : St) : Option St :=
  if accepted then
    let s := { s with registered := true }
    let s := if n > 0 then
        { s with
          heartbeat := some n
          dm := (setValue s.dm heartbeatInterval.1 heartbeatInterval.2 .actual (digits n.toNat) false).2 }
      else s
    updateAligned s
  else some { s with registered := false }

/-- The connection is opened: `try_connect_websocket`, connectivity_manager.cpp l.180-250; `cfg` is what the callback of the application
says, if there is one: the interface to be used. -/
def connect (cfg : Option (Option Str)) (s : St) : Option St := do
  let o ← readOpts s.dm
  return { s with ws := some (match cfg with | none => o | some i => { o with iface := i }) }

/-- What happens. -/
inductive Ev
  | set (csms : Bool) (slot : Slot) (ds : List SetData)
  | boot (accepted : Bool) (interval : Int)
  | connect (cfg : Option (Option Str))

def step (guard : DM → SetData → Bool) (s : St) : Ev → Option St
  | .set csms slot ds => request guard (!csms) slot s ds
  | .boot a n => boot a n s
  | .connect c => connect c s

def run (guard : DM → SetData → Bool) : St → List Ev → Option St
  | s, [] => some s
  | s, e :: l => (step guard s e).bind fun s' => run guard s' l

end Verif.Effects
