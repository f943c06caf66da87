import Verif.DeviceModel.Model
/-
The check of the device model when a 2.x charging station is created: `DeviceModel::check_integrity` with
`check_required_variables` (`lib/ocpp/v2/device_model.cpp` l.133-227, 536-631), called in the constructor of
the `ChargePoint` (`lib/ocpp/v2/charge_point.cpp` l.423), and the typed reads `get_value` and
`get_optional_value` (`include/ocpp/v2/device_model.hpp` l.166-211).
-/
set_option linter.constructorNameAsVariable false

namespace Verif.Req2

open Verif.DM

/-- A variable of a component, `ComponentVariable` with a variable. -/
abbrev CV := Comp × Vbl

/-- A variable of a controller, which belongs to no EVSE. -/
def cv (c v : String) : CV := (⟨c.toList, none, none⟩, ⟨v.toList, none⟩)

/-- A variable of a controller with an instance. -/
def cvi (c v i : String) : CV := (⟨c.toList, none, none⟩, ⟨v.toList, some i.toList⟩)

/-- `OcppProtocolVersion` (`include/ocpp/common/types.hpp`). -/
inductive Version where
  | v16 | v201 | v21 | unknown
  deriving DecidableEq, Repr

/-- `string_to_ocpp_protocol_version` (`lib/ocpp/common/types.cpp` l.1079-1093); `none` is the exception. -/
def versionOf (s : Str) : Option Version :=
  if s == "ocpp1.6".toList then some .v16
  else if s == "ocpp2.0.1".toList then some .v201
  else if s == "ocpp2.1".toList then some .v21
  else if s == "unknown".toList then some .unknown
  else none

/-- `get_ocpp_protocol_versions` (`lib/ocpp/v2/utils.cpp` l.231-246): the parts of the text that name a
version; they are not trimmed. -/
def versionsOf (csl : Str) : List Version := if csl.isEmpty then [] else (splitString csl).filterMap versionOf

/-- `required_for` of every `RequiredComponentVariable`
(`include/ocpp/v2/ctrlr_component_variables.hpp` l.18-38; no variable names other versions). -/
def requiredFor : List Version := [.v201, .v21]

/-- `ControllerComponentVariables::SupportedOcppVersions` (`lib/ocpp/v2/ctrlr_component_variables.cpp` l.346). -/
def supportedVersions : CV := cv "InternalCtrlr" "SupportedOcppVersions"

/-- `required_variables` (`lib/ocpp/v2/ctrlr_component_variables.cpp` l.1384-1443). -/
def required : List CV := [
  cv "AlignedDataCtrlr" "Interval", cv "AlignedDataCtrlr" "Measurands",
  cv "AlignedDataCtrlr" "TxEndedInterval", cv "AlignedDataCtrlr" "TxEndedMeasurands",
  cv "SampledDataCtrlr" "TxEndedMeasurands", cv "SampledDataCtrlr" "TxEndedInterval",
  cv "SampledDataCtrlr" "TxStartedMeasurands", cv "SampledDataCtrlr" "TxUpdatedMeasurands",
  cv "SampledDataCtrlr" "TxUpdatedInterval",
  cv "InternalCtrlr" "ChargePointId", cv "InternalCtrlr" "NetworkConnectionProfiles",
  cv "InternalCtrlr" "ChargeBoxSerialNumber", cv "InternalCtrlr" "ChargePointModel",
  cv "InternalCtrlr" "ChargePointVendor", cv "InternalCtrlr" "FirmwareVersion",
  cv "InternalCtrlr" "SupportedCiphers12", cv "InternalCtrlr" "SupportedCiphers13",
  cv "InternalCtrlr" "LogMessagesFormat", cv "InternalCtrlr" "NumberOfConnectors", supportedVersions,
  cv "AuthCtrlr" "AuthorizeRemoteStart", cv "AuthCtrlr" "LocalAuthorizeOffline",
  cv "AuthCtrlr" "LocalPreAuthorize",
  cv "ChargingStation" "AvailabilityState", cv "ChargingStation" "Available",
  cv "ChargingStation" "SupplyPhases",
  cv "ClockCtrlr" "DateTime", cv "ClockCtrlr" "TimeSource",
  cvi "DeviceDataCtrlr" "BytesPerMessage" "GetReport", cvi "DeviceDataCtrlr" "BytesPerMessage" "GetVariables",
  cvi "DeviceDataCtrlr" "BytesPerMessage" "SetVariables", cvi "DeviceDataCtrlr" "ItemsPerMessage" "GetReport",
  cvi "DeviceDataCtrlr" "ItemsPerMessage" "GetVariables", cvi "DeviceDataCtrlr" "ItemsPerMessage" "SetVariables",
  cv "ISO15118Ctrlr" "ContractValidationOffline",
  cv "OCPPCommCtrlr" "FileTransferProtocols", cvi "OCPPCommCtrlr" "MessageTimeout" "Default",
  cvi "OCPPCommCtrlr" "MessageAttemptInterval" "TransactionEvent",
  cvi "OCPPCommCtrlr" "MessageAttempts" "TransactionEvent",
  cv "OCPPCommCtrlr" "NetworkConfigurationPriority", cv "OCPPCommCtrlr" "NetworkProfileConnectionAttempts",
  cv "OCPPCommCtrlr" "OfflineThreshold", cv "OCPPCommCtrlr" "ResetRetries",
  cv "OCPPCommCtrlr" "RetryBackOffRandomRange", cv "OCPPCommCtrlr" "RetryBackOffRepeatTimes",
  cv "OCPPCommCtrlr" "RetryBackOffWaitMinimum", cv "OCPPCommCtrlr" "UnlockOnEVSideDisconnect",
  cv "OCPPCommCtrlr" "WebSocketPingInterval",
  cv "SecurityCtrlr" "CertificateEntries", cv "SecurityCtrlr" "Identity", cv "SecurityCtrlr" "OrganizationName",
  cv "SecurityCtrlr" "SecurityProfile",
  cv "TxCtrlr" "EVConnectionTimeOut", cv "TxCtrlr" "StopTxOnEVSideDisconnect", cv "TxCtrlr" "StopTxOnInvalidId",
  cv "TxCtrlr" "TxStartPoint", cv "TxCtrlr" "TxStopPoint", cv "TxCtrlr" "TxStartPoint",
  cv "TxCtrlr" "TxStopPoint"]

/-- `required_component_available_variables` (`lib/ocpp/v2/ctrlr_component_variables.cpp` l.1356-1382). -/
def requiredIf : List (CV × List CV) := [
  (cv "LocalAuthListCtrlr" "Available",
    [cv "LocalAuthListCtrlr" "Entries", cv "LocalAuthListCtrlr" "ItemsPerMessage",
     cv "LocalAuthListCtrlr" "BytesPerMessage"]),
  (cv "SmartChargingCtrlr" "Available",
    [cv "SmartChargingCtrlr" "ProfileStackLevel", cv "SmartChargingCtrlr" "RateUnit",
     cv "SmartChargingCtrlr" "PeriodsPerSchedule", cvi "SmartChargingCtrlr" "Entries" "ChargingProfiles",
     cv "SmartChargingCtrlr" "LimitChangeSignificance",
     cv "SmartChargingCtrlr" "CompositeScheduleDefaultLimitAmps",
     cv "SmartChargingCtrlr" "CompositeScheduleDefaultLimitWatts",
     cv "SmartChargingCtrlr" "CompositeScheduleDefaultNumberPhases", cv "SmartChargingCtrlr" "SupplyVoltage"]),
  (cvi "TariffCostCtrlr" "Available" "Tariff", [cv "TariffCostCtrlr" "TariffFallbackMessage"]),
  (cvi "TariffCostCtrlr" "Available" "Cost",
    [cv "TariffCostCtrlr" "TotalCostFallbackMessage", cv "TariffCostCtrlr" "Currency"]),
  (cv "MonitoringCtrlr" "Available",
    [cvi "MonitoringCtrlr" "ItemsPerMessage" "SetVariableMonitoring",
     cvi "MonitoringCtrlr" "BytesPerMessage" "SetVariableMonitoring"]),
  (cv "DisplayMessageCtrlr" "Available",
    [cv "DisplayMessageCtrlr" "DisplayMessages", cv "DisplayMessageCtrlr" "SupportedFormats",
     cv "DisplayMessageCtrlr" "SupportedPriorities"])]

/-- `required_evse_variables` (`lib/ocpp/v2/ctrlr_component_variables.cpp` l.1446-1447). -/
def requiredEvse : List Vbl := [⟨"Available".toList, none⟩, ⟨"AvailabilityState".toList, none⟩,
  ⟨"SupplyPhases".toList, none⟩]

/-- `required_connector_variables` (`lib/ocpp/v2/ctrlr_component_variables.cpp` l.1449-1451). -/
def requiredConnector : List Vbl := [⟨"Available".toList, none⟩, ⟨"AvailabilityState".toList, none⟩,
  ⟨"SupplyPhases".toList, none⟩, ⟨"ConnectorType".toList, none⟩]

/-- `required_v2x_variables` (`lib/ocpp/v2/ctrlr_component_variables.cpp` l.1453-1455). -/
def requiredV2x : List Vbl := [⟨"Available".toList, none⟩, ⟨"Enabled".toList, none⟩,
  ⟨"SupportedEnergyTransferModes".toList, none⟩, ⟨"SupportedOperationModes".toList, none⟩]

/-- `string_to_bool` (`lib/ocpp/common/types.cpp` l.1198-1205). -/
def toBool (s : Str) : Bool := s.map Char.toLower == "true".toList

/-- The text `get_value` and `get_optional_value` convert (`include/ocpp/v2/device_model.hpp` l.166-211);
`none` is the exception of `get_value` and `std::nullopt` of `get_optional_value`. -/
def getText (dm : DM) (x : CV) : Option Str :=
  let r := requestValue dm x.1 x.2 .actual true
  if r.1 == .accepted then r.2 else none

/-- `get_optional_value<bool>(…).value_or(false)`. -/
def isTrue (dm : DM) (x : CV) : Bool := ((getText dm x).map toBool).getD false

/-- `get_value<int>` (`include/ocpp/v2/device_model.hpp` l.36-37, 166-188); `none` is an exception. -/
def getInt (dm : DM) (x : CV) : Option Int := (getText dm x).bind stoi

/-- What `check_integrity` throws. -/
inductive Failure where
  | noVersions
  | missing (l : List CV)
  | connectorWithoutEvse
  | evseCount
  | connectorCount (evse : Int)
  | noComponent (c : Comp)
  | noValue (x : CV)
  | noPower (evse : Int)
  | noMaxLimit (evse : Int)
  deriving DecidableEq, Repr

/-- `check_variable_has_value` (`device_model.cpp` l.133-147) does not throw. -/
def hasValue (dm : DM) (x : CV) : Bool := (requestValue dm x.1 x.2 .actual true).1 == .accepted

/-- `check_required_variable` (`device_model.cpp` l.149-173) does not throw. -/
def checkRequired (dm : DM) (vs : List Version) (x : CV) : Bool :=
  if vs.isEmpty then false
  else if vs.any (fun v => requiredFor.contains v) then hasValue dm x
  else true

/-- The variables `check_required_variables` collects errors for (`device_model.cpp` l.183-217). -/
def missing (dm : DM) (vs : List Version) : List CV :=
  required.filter (fun x => !checkRequired dm vs x) ++
  requiredIf.flatMap (fun a => if isTrue dm a.1 then a.2.filter (fun x => !checkRequired dm vs x) else [])

/-- `check_required_variables` (`device_model.cpp` l.175-227). -/
def checkVariables (dm : DM) : Option Failure :=
  match getText dm supportedVersions with
  | none => some (.missing [supportedVersions])
  | some csl =>
    let vs := versionsOf csl
    if vs.isEmpty then some .noVersions
    else if (missing dm vs).isEmpty then none
    else some (.missing (missing dm vs))

/-- The components of `device_model_map`, each once. -/
def components (dm : DM) : List Comp := (dm.map (·.comp)).eraseDups

/-- The component of an EVSE. -/
def evseComp (i : Int) : Comp := ⟨"EVSE".toList, none, some (i, none)⟩

/-- The component of a connector. -/
def connectorComp (i k : Int) : Comp := ⟨"Connector".toList, none, some (i, some k)⟩

/-- The V2X component of an EVSE. -/
def v2xComp (i : Int) : Comp := ⟨"V2XChargingCtrlr".toList, none, some (i, none)⟩

/-- `nr_evse_components` (`device_model.cpp` l.542-548). -/
def evseCount (dm : DM) : Nat := ((components dm).filter (fun c => c.name == "EVSE".toList)).length

/-- Whether the loop meets a connector that belongs to no EVSE (`device_model.cpp` l.549-552). -/
def strayConnector (dm : DM) : Bool :=
  (components dm).any (fun c => c.name == "Connector".toList && c.evse.isNone)

/-- `evse_id_nr_connector_components[evse_id]` (`device_model.cpp` l.553-559). -/
def connectorCount (dm : DM) (i : Int) : Nat :=
  ((components dm).filter (fun c => c.name == "Connector".toList && c.evse.map (·.1) == some i)).length

/-- One variable checked in the loops over EVSEs and connectors. -/
def needValue (dm : DM) (c : Comp) (v : Vbl) : Option Failure :=
  if hasValue dm (c, v) then none else some (.noValue (c, v))

/-- The checks of one connector (`device_model.cpp` l.616-627). -/
def checkConnector (dm : DM) (i k : Int) : Option Failure :=
  if !hasComp dm (connectorComp i k) then some (.noComponent (connectorComp i k))
  else requiredConnector.findSome? (needValue dm (connectorComp i k))

/-- The check of `Power` (`device_model.cpp` l.589-598). -/
def checkPower (dm : DM) (i : Int) : Option Failure :=
  match find dm (evseComp i) ⟨"Power".toList, none⟩ with
  | none => some (.noPower i)
  | some e => if e.chars.maxLimit.isSome then none else some (.noMaxLimit i)

/-- The check of the V2X variables of an EVSE (`device_model.cpp` l.600-614): whether *any* EVSE has V2X
available decides. -/
def checkV2x (dm : DM) (st : List (Int × Int)) (i : Int) : Option Failure :=
  if hasComp dm (v2xComp i) && st.any (fun e => isTrue dm (v2xComp e.1, ⟨"Available".toList, none⟩)) then
    requiredV2x.findSome? (needValue dm (v2xComp i))
  else none

/-- The checks of one EVSE with `n` connectors (`device_model.cpp` l.568-628). -/
def checkEvse (dm : DM) (st : List (Int × Int)) (i n : Int) : Option Failure :=
  if (connectorCount dm i : Int) != n then some (.connectorCount i)
  else if !hasComp dm (evseComp i) then some (.noComponent (evseComp i))
  else (requiredEvse.findSome? (needValue dm (evseComp i))).or
    ((checkPower dm i).or ((checkV2x dm st i).or
      ((List.range n.toNat).findSome? (fun (k : Nat) => checkConnector dm i (k + 1)))))

/-- The part of `check_integrity` about EVSEs and connectors (`device_model.cpp` l.542-628). -/
def checkStructure (dm : DM) (st : List (Int × Int)) : Option Failure :=
  if strayConnector dm then some .connectorWithoutEvse
  else if evseCount dm != st.length then some .evseCount
  else st.findSome? (fun e => checkEvse dm st e.1 e.2)

/-- `DeviceModel::check_integrity` (`device_model.cpp` l.536-633): `none` means that it does not throw.
`st` is the map from EVSE ids to numbers of connectors. -/
def check (dm : DM) (st : List (Int × Int)) : Option Failure := (checkVariables dm).or (checkStructure dm st)

/-! ### Writes while the charging station runs -/

/-- What changes values of the device model: SetVariables of the CSMS, `set_value` of the station itself
and `set_read_only_value`. -/
inductive Ev where
  | setVariables (guard : DM → SetData → Bool) (ds : List SetData)
  | setValue (x : CV) (a : AttrType) (val : Str) (allowReadOnly : Bool)
  | setReadOnly (x : CV) (a : AttrType) (val : Str)

/-- One event; an exception leaves the device model as it is. -/
def step (dm : DM) : Ev → DM
  | .setVariables g ds => (handleSetVariables g dm ds).1
  | .setValue x a val ro => (DM.setValue dm x.1 x.2 a val ro).2
  | .setReadOnly x a val => match setReadOnlyValue dm x.1 x.2 a val with
    | none => dm
    | some r => r.2

/-- A history of writes. -/
def run : DM → List Ev → DM
  | dm, [] => dm
  | dm, e :: es => run (step dm e) es

end Verif.Req2
