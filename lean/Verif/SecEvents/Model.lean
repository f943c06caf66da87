/-!
# Security events

Model of `ChargePointImpl::securityEventNotification` and its callers for the connection and the start (v16/charge_point_impl.cpp), of
`Security::security_event_notification_req` (v2/functional_blocks/security.cpp) and its callers in v2/charge_point.cpp, and of
`is_critical` (v16/utils.cpp, v2/utils.cpp). Names: include/ocpp/common/types.hpp l.789-812.

Simplifications: the type and the text are within their limits (`CiString<50>`, `CiString<255>`) except where a text is built; the times are
numbers; the CSMS is reached through `dispatch_call` (`MessageQueue`, C01), here the effect `send`.
-/

namespace Verif.SecEvents

/-- OCPP 1.6 or 2.x. -/
inductive Version
  | v16 | v2
deriving DecidableEq, Repr

/-- What an event leads to: a line in the security log, a SecurityEventNotification.req, a call of the application. -/
inductive Eff
  | log (type : String) (tech : Option String) (time : Nat)
  | send (type : String) (tech : Option String) (time : Nat)
  | call (type : String) (tech : Option String)
deriving DecidableEq, Repr

/-- `disabled`: DisableSecurityEventNotifications (1.6); `callback`: the application has registered `security_event_callback`; `skip`:
`InvalidCSMSCertificate_logged` (1.6), `skip_invalid_csms_certificate_notifications` (2.x). -/
structure State where
  disabled : Bool
  callback : Bool
  skip : Bool
deriving DecidableEq, Repr

/-- `utils::is_critical`, v16/utils.cpp l.24-48. -/
def isCritical16 (e : String) : Bool :=
  if e = "FirmwareUpdated" then true
  else if e = "SettingSystemTime" then true
  else if e = "StartupOfTheDevice" then true
  else if e = "ResetOrReboot" then true
  else if e = "SecurityLogWasCleared" then true
  else if e = "MemoryExhaustion" then true
  else if e = "TamperDetectionActivated" then true
  else false

/-- `utils::is_critical`, v2/utils.cpp l.159-207. -/
def isCritical2 (e : String) : Bool :=
  if e = "FirmwareUpdated" then true
  else if e = "SettingSystemTime" then true
  else if e = "StartupOfTheDevice" then true
  else if e = "ResetOrReboot" then true
  else if e = "SecurityLogWasCleared" then true
  else if e = "MemoryExhaustion" then true
  else if e = "TamperDetectionActivated" then true
  else if e = "InvalidFirmwareSignature" then true
  else if e = "InvalidFirmwareSigningCertificate" then true
  else if e = "InvalidCsmsCertificate" then true
  else if e = "InvalidChargingStationCertificate" then true
  else if e = "InvalidTLSVersion" then true
  else if e = "InvalidTLSCipherSuite" then true
  else if e = "MaintenanceLoginAccepted" then true
  else if e = "MaintenanceLoginFailed" then true
  else false

/-- The criticality, v16/charge_point_impl.cpp l.3037-3042. -/
def critOf16 (type : String) : Option Bool → Bool
  | some b => b
  | none => isCritical16 type

/-- The criticality, v2/charge_point.cpp l.398-403. -/
def critOf2 (type : String) : Option Bool → Bool
  | some b => b
  | none => isCritical2 type

/-- `tech_info.value_or(CiString<255>(""))` for the application, v16/charge_point_impl.cpp l.3050. -/
def shownTech (tech : Option String) : Option String := some (tech.getD "")

/-- `ChargePointImpl::securityEventNotification`, v16/charge_point_impl.cpp l.3022-3052. -/
def notify16 (s : State) (now : Nat) (type : String) (tech : Option String) (internal : Bool) (critical : Option Bool)
    (time : Option Nat) : List Eff :=
  let t := time.getD now
  [.log type tech t] ++ (if critOf16 type critical = true ∧ s.disabled = false then [.send type tech t] else []) ++
    (if internal = true ∧ s.callback = true then [.call type (shownTech tech)] else [])

/-- `Security::security_event_notification_req`, v2/functional_blocks/security.cpp l.135-156. -/
def notify2 (s : State) (now : Nat) (type : String) (tech : Option String) (internal : Bool) (critical : Bool)
    (time : Option Nat) : List Eff :=
  let t := time.getD now
  [.log type tech t] ++ (if critical = true then [.send type tech t] else []) ++
    (if internal = true ∧ s.callback = true then [.call type tech] else [])

/-- `ChargePoint::on_security_event`, v16/charge_point_impl.cpp l.4902-4905 and v2/charge_point.cpp l.396-405. -/
def onSecurityEvent (v : Version) (s : State) (now : Nat) (type : String) (tech : Option String) (critical : Option Bool)
    (time : Option Nat) : List Eff :=
  match v with
  | .v16 => notify16 s now type tech false critical time
  | .v2 => notify2 s now type tech false (critOf2 type critical) time

/-- What happens: an event reported by the application; a connection made; a connection that failed, for one of the two reasons
(`ConnectionFailedReason`); a change of the configuration key (1.6); the application registers its callback. -/
inductive Input
  | report (type : String) (tech : Option String) (critical : Option Bool) (time : Option Nat)
  | connected
  | failedAuth
  | failedCert
  | setDisabled (b : Bool)
  | register
deriving DecidableEq, Repr

/-- The callback for failed connections: v16/charge_point_impl.cpp l.345-360 (the event is forced), v2/charge_point.cpp l.1137-1155. -/
def certEvent (v : Version) (s : State) (now : Nat) : List Eff :=
  match v with
  | .v16 => notify16 s now "InvalidCentralSystemCertificate" none true (some true) none
  | .v2 => notify2 s now "InvalidCsmsCertificate" none true true none

/-- The other reason, same lines: the name says whether it is critical. -/
def authEvent (v : Version) (s : State) (now : Nat) : List Eff :=
  match v with
  | .v16 => notify16 s now "FailedToAuthenticateAtCsms" none true none none
  | .v2 => notify2 s now "FailedToAuthenticateAtCsms" none true (isCritical2 "FailedToAuthenticateAtCsms") none

/-- One input: `on_security_event`, the connected callbacks (v16 l.296-306: the flag is reset; v2 l.1110-1113), the failed callbacks. -/
def step (v : Version) (s : State) (now : Nat) : Input → State × List Eff
  | .report type tech critical time => (s, onSecurityEvent v s now type tech critical time)
  | .connected => ({ s with skip := false }, [])
  | .failedAuth => (s, authEvent v s now)
  | .failedCert => if s.skip = true then (s, []) else ({ s with skip := true }, certEvent v s now)
  | .setDisabled b => ({ s with disabled := b }, [])
  | .register => ({ s with callback := true }, [])

/-- A history: inputs with their times. -/
def run (v : Version) : State → List (Nat × Input) → List (List Eff)
  | _, [] => []
  | s, (now, i) :: l => (step v s now i).2 :: run v (step v s now i).1 l

/-- The state after a history. -/
def after (v : Version) : State → List (Nat × Input) → State
  | s, [] => s
  | s, (now, i) :: l => after v (step v s now i).1 l

/-- Reasons of a start: `BootReasonEnum`. -/
inductive Boot
  | applicationReset | firmwareUpdate | localReset | powerUp | remoteReset | scheduledReset | triggered | unknown | watchdog
deriving DecidableEq, Repr

/-- The event of `ChargePointImpl::start`, v16/charge_point_impl.cpp l.1164-1189. -/
def boot16 (s : State) (now : Nat) : Boot → List Eff
  | .remoteReset => notify16 s now "ResetOrReboot" (some "Charging Station rebooted due to requested remote reset!") true none none
  | .scheduledReset => notify16 s now "ResetOrReboot" (some "Charging Station rebooted due to a scheduled reset!") true none none
  | .firmwareUpdate => notify16 s now "FirmwareUpdated" (some "Charging Station rebooted due to firmware update!") true none none
  | _ => notify16 s now "StartupOfTheDevice" (some "The Charge Point has booted") true none none

/-- `CiString<255>(text)`: throws if the text is longer. -/
def fit255 (text : String) : Option String := if text.utf8ByteSize ≤ 255 then some text else none

/-- The event of `ChargePoint::start`, v2/charge_point.cpp l.136-161; `fw`: the firmware version. `none`: the conversion of the text
throws. -/
def boot2 (s : State) (now : Nat) (fw : String) : Boot → Option (List Eff)
  | .remoteReset => some (notify2 s now "ResetOrReboot" (some "Charging Station rebooted due to requested remote reset!") true true none)
  | .scheduledReset => some (notify2 s now "ResetOrReboot" (some "Charging Station rebooted due to a scheduled reset!") true true none)
  | .powerUp => (fit255 ("Charging Station powered up! Firmware version: " ++ fw)).map fun t =>
      notify2 s now "StartupOfTheDevice" (some t) true true none
  | .firmwareUpdate => (fit255 ("Charging station reboot after firmware update. Firmware version: " ++ fw)).map fun t =>
      notify2 s now "FirmwareUpdated" (some t) true true none
  | _ => (fit255 ("Charging station reset or reboot. Firmware version: " ++ fw)).map fun t =>
      notify2 s now "ResetOrReboot" (some t) true true none

end Verif.SecEvents
