import Verif.Conn16.Model

set_option linter.constructorNameAsVariable false

/-!
# TriggerMessage and ExtendedTriggerMessage of OCPP 1.6, and the statuses they ask for

Model of the parts of `lib/ocpp/v16/charge_point_impl.cpp` that answer the two requests, and of the calls by which the
application tells the progress of an upload or of a firmware update.

Simplifications: the call of the application and the request of the CSMS are each one step. A measurement is given by
the number of samples that the key MeterValuesSampledData lets through (the samples themselves are the subject of
`Verif.Met16`). What happens to the connectors because of a firmware update is the subject of `Verif.Conn16`; here only
that it is done is recorded (`prepare`, `restore`). That the messages handed over reach the CSMS is the subject of
`Verif.MQ` and `Verif.Boot`.
-/

namespace Verif.Trig16

open Conn16 (Status)

/-- `FirmwareStatusNotification` (include/ocpp/common/types.hpp), with the same values as `FirmwareStatusEnumType`
(include/ocpp/v16/ocpp_enums.hpp l.960-975). -/
inductive Fw
  | downloaded | downloadFailed | downloading | downloadScheduled | downloadPaused | idle | installationFailed
  | installing | installed | installRebooting | installScheduled | installVerificationFailed | invalidSignature
  | signatureVerified
  deriving DecidableEq, Repr

/-- `FirmwareStatus` (ocpp_enums.hpp l.371-379). -/
inductive Fw16
  | downloaded | downloadFailed | downloading | idle | installationFailed | installing | installed
  deriving DecidableEq, Repr

/-- `UploadLogStatusEnumType` (ocpp_enums.hpp l.547-555). -/
inductive Log
  | badMessage | idle | notSupported | permissionDenied | uploaded | uploadFailure | uploading
  deriving DecidableEq, Repr

/-- `DiagnosticsStatus` (ocpp_enums.hpp l.300-305). -/
inductive Diag
  | idle | uploaded | uploadFailed | uploading
  deriving DecidableEq, Repr

/-- `firmware_status_notification_to_firmware_status` (lib/ocpp/common/types.cpp l.1237-1265). `none` is
`EnumConversionException`, a `std::out_of_range`. -/
def toFw16 : Fw → Option Fw16
  | .downloaded => some .downloaded
  | .downloadFailed => some .downloadFailed
  | .downloading => some .downloading
  | .idle => some .idle
  | .installationFailed => some .installationFailed
  | .installing => some .installing
  | .installed => some .installed
  | _ => none

/-- `on_log_status_notification` (charge_point_impl.cpp l.4614-4619): the status of a diagnostics upload by the text of
the status of a log upload. `none` is the exception of `string_to_diagnostics_status`. -/
def toDiag : Log → Option Diag
  | .idle => some .idle
  | .uploaded => some .uploaded
  | .uploadFailure => some .uploadFailed
  | .uploading => some .uploading
  | _ => none

/-- `MessageTrigger` (ocpp_enums.hpp). -/
inductive Msg
  | boot | diagnostics | firmware | heartbeat | meterValues | status
  deriving DecidableEq, Repr

/-- `MessageTriggerEnumType` (ocpp_enums.hpp). -/
inductive Ext
  | boot | firmware | heartbeat | log | meterValues | sign | status
  deriving DecidableEq, Repr

/-- The members of `ChargePointImpl` used here (charge_point_impl.hpp l.94-97, 150-153; constructor l.45-54).
`none` for `log_status_request_id`, `signed_firmware_status` and `signed_firmware_status_request_id`: not initialised. -/
structure State where
  /-- `getNumberOfConnectors`. -/
  n : Nat
  diag : Diag := .idle
  fw : Fw16 := .idle
  log : Log := .idle
  logId : Option Int := none
  signed : Option Fw := none
  signedId : Option Int := none
  /-- `firmware_update_is_pending`. -/
  pending : Bool := false
  /-- Number of samples of the last measurement of a connector. -/
  meter : Nat → Option Nat := fun _ => none
  /-- `status->get_state`. -/
  status : Nat → Status := fun _ => .available
  /-- `status->get_latest_error`, without the texts; 0 is `NoError`. -/
  error : Nat → Nat := fun _ => 0
  /-- `getCpoName` has a value. -/
  cpo : Bool := false
  /-- A certificate signing request can be made. -/
  csr : Bool := false

/-- What can be observed. -/
inductive Out
  | answer (accepted : Bool)
  | boot
  | heartbeat
  | diag (s : Diag)
  | fw (s : Fw16)
  | log (s : Log) (id : Int)
  | signed (s : Fw) (id : Int)
  | meterValues (c : Nat)
  | status (c : Nat) (s : Status) (e : Nat)
  | sign
  /-- The security event CSRGenerationFailed. -/
  | csrFailed
  /-- The security event InvalidFirmwareSignature. -/
  | invalidSignature
  /-- `change_all_connectors_to_unavailable_for_firmware_update`. -/
  | prepare
  /-- The connectors are enabled again (l.4643-4655). -/
  | restore
  /-- A value that was never written is read. -/
  | undefined
  /-- An exception reaches the application. -/
  | exception
  deriving DecidableEq, Repr

/-- What can happen. -/
inductive Ev
  /-- `on_log_status_notification`. -/
  | logStatus (id : Int) (s : Log)
  /-- `on_firmware_update_status_notification`. -/
  | firmware (id : Int) (s : Fw)
  /-- `on_meter_values`. -/
  | measured (c : Nat) (samples : Nat)
  /-- The status or the latest error of a connector changes. -/
  | connector (c : Nat) (s : Status) (e : Nat)
  /-- The configuration of the operator and the ability to make certificate signing requests. -/
  | security (cpo csr : Bool)
  | trigger (m : Msg) (c : Option Int)
  | extTrigger (m : Ext) (c : Option Int)
  deriving DecidableEq, Repr

/-- `log_status_notification` (l.3054-3074). -/
def sendLog (s : State) (st : Log) (id : Int) : State × List Out :=
  ({ s with
      log := if st ≠ .uploading then .idle else st
      logId := some id }, [.log st id])

/-- `diagnostic_status_notification` (l.4677-4690). -/
def sendDiag (s : State) (st : Diag) : State × List Out :=
  ({ s with diag := if st ≠ .uploading then .idle else st }, [.diag st])

/-- `firmware_status_notification` (l.4692-4716). -/
def sendFw (s : State) (st : Fw16) : State × List Out :=
  let pending :=
    if st = .downloaded then true
    else if st = .downloadFailed ∨ st = .installationFailed then false
    else s.pending
  ({ s with
      pending := pending
      fw := st }, .fw st :: if pending then [.prepare] else [])

/-- `signed_firmware_update_status_notification` (l.3076-3110). -/
def sendSigned (s : State) (st : Fw) (id : Int) : State × List Out :=
  let pending :=
    if st = .signatureVerified then true
    else if st = .installationFailed ∨ st = .downloadFailed ∨ st = .installVerificationFailed ∨ st = .invalidSignature
      then false
    else s.pending
  ({ s with
      pending := pending
      signed := some st
      signedId := some id },
    .signed st id :: (if st = .invalidSignature then [.invalidSignature] else []) ++ (if pending then [.prepare] else []))

/-- The condition of l.4636-4638. -/
def restores : Fw → Bool
  | .installationFailed | .installed | .installVerificationFailed => true
  | _ => false

/-- The condition of l.4658-4662. -/
def ends : Fw → Bool
  | .installationFailed | .installed | .invalidSignature | .installVerificationFailed | .downloadFailed => true
  | _ => false

/-- The first part of `on_firmware_update_status_notification` (l.4624-4634). -/
def reportFirmware (s : State) (id : Int) (st : Fw) : State × List Out :=
  if id ≠ -1 then sendSigned s st id
  else
    match toFw16 st with
    | some x => sendFw s x
    | none => (s, [])

/-- The last part of `on_firmware_update_status_notification` (l.4658-4674). -/
def endFirmware (s : State) (id : Int) (st : Fw) : State :=
  if ends st then
    if id ≠ -1 then { s with signed := some .idle } else { s with fw := .idle }
  else s

/-- `on_firmware_update_status_notification` (l.4622-4675). -/
def onFirmware (s : State) (id : Int) (st : Fw) : State × List Out :=
  (endFirmware (reportFirmware s id st).1 id st,
    (reportFirmware s id st).2 ++ if restores st then [.restore] else [])

/-- `on_log_status_notification` (l.4609-4621). -/
def onLog (s : State) (id : Int) (st : Log) : State × List Out :=
  if id ≠ -1 then sendLog s st id
  else
    match toDiag st with
    | some x => sendDiag s x
    | none => (s, [.exception])

/-- `get_latest_meter_value` and `send_meter_value` (l.2651-2661, 996-1001). -/
def sendMeter (s : State) (c : Nat) : List Out :=
  match s.meter c with
  | some (_ + 1) => [.meterValues c]
  | _ => []

/-- The status notification of a connector (l.2674-2688). -/
def sendStatus (s : State) (c : Nat) : Out := .status c (s.status c) (s.error c)

/-- `connector < 0 || connector > getNumberOfConnectors()` (l.2610-2613, 2749-2751). -/
def inRange (s : State) (c : Option Int) : Bool :=
  !(decide (c.getD 0 < 0) || decide ((s.n : Int) < c.getD 0))

/-- `sign_certificate` with `ChargingStationCertificate` (l.2812-2856). -/
def sign (s : State) : List Out :=
  if !s.cpo then [.csrFailed] else if !s.csr then [.csrFailed] else [.sign]

/-- The status notifications of a triggered message (l.2669-2689, 2793-2810). -/
def sendStatuses (s : State) (c : Option Int) : List Out :=
  match c with
  | none => (List.range (s.n + 1)).map (sendStatus s)
  | some c => [sendStatus s c.toNat]

/-- Whether there is a measurement to send (l.2615-2625). -/
def measured (s : State) (c : Option Int) : Bool :=
  match c with
  | some c => (s.meter c.toNat).isSome
  | none => (List.range (s.n + 1)).any (fun c => (s.meter c).isSome)

/-- The second `switch` of `handleTriggerMessageRequest` (l.2637-2690). -/
def perform (s : State) (m : Msg) (c : Option Int) : State × List Out :=
  match m with
  | .boot => (s, [.boot])
  | .diagnostics => sendDiag s s.diag
  | .firmware => sendFw s s.fw
  | .heartbeat => (s, [.heartbeat])
  | .meterValues =>
    (s, match c with
      | none => (List.range (s.n + 1)).flatMap (sendMeter s)
      | some c => sendMeter s c.toNat)
  | .status => (s, sendStatuses s c)

/-- `handleTriggerMessageRequest` (l.2593-2691). -/
def onTrigger (s : State) (m : Msg) (c : Option Int) : State × List Out :=
  if inRange s c && (m != .meterValues || measured s c) then
    ((perform s m c).1, .answer true :: (perform s m c).2)
  else (s, [.answer false])

/-- The second `switch` of `handleExtendedTriggerMessageRequest` (l.2763-2811). -/
def performExt (s : State) (m : Ext) (c : Option Int) : State × List Out :=
  match m with
  | .boot => (s, [.boot])
  | .firmware =>
    match s.signed, s.signedId with
    | some st, some id => sendSigned s st id
    | _, _ => (s, [.undefined])
  | .heartbeat => (s, [.heartbeat])
  | .log =>
    match s.logId with
    | some id => sendLog s s.log id
    | none => (s, [.undefined])
  | .meterValues => (s, sendMeter s (c.getD 0).toNat)
  | .sign => (s, sign s)
  | .status => (s, sendStatuses s c)

/-- `handleExtendedTriggerMessageRequest` (l.2717-2812). -/
def onExtTrigger (s : State) (m : Ext) (c : Option Int) : State × List Out :=
  if (m != .sign || s.cpo) && inRange s c then
    ((performExt s m c).1, .answer true :: (performExt s m c).2)
  else (s, [.answer false])

/-- One step. -/
def step (s : State) : Ev → State × List Out
  | .logStatus id st => onLog s id st
  | .firmware id st => onFirmware s id st
  | .measured c k => ({ s with meter := fun d => if d = c then some k else s.meter d }, [])
  | .connector c st e =>
    ({ s with
        status := fun d => if d = c then st else s.status d
        error := fun d => if d = c then e else s.error d }, [])
  | .security a b =>
    ({ s with
        cpo := a
        csr := b }, [])
  | .trigger m c => onTrigger s m c
  | .extTrigger m c => onExtTrigger s m c

/-- The state after a history, from the start of a charge point with `n` connectors. -/
def after (n : Nat) (h : List Ev) : State := h.foldl (fun s e => (step s e).1) { n := n }

end Verif.Trig16
