import Verif.Required.Model
import Verif.DeviceModel.Spec
/-
When a device model is complete, said without the functions of the model.
-/
namespace Verif.Req2

open Verif.DM

/-- The variable has a value. -/
def HasValue (dm : DM) (x : CV) : Prop := ∃ y, IsAttr dm x.1 x.2 .actual y ∧ y.value ≠ none

/-- The variable has this value. -/
def Value (dm : DM) (x : CV) (val : Str) : Prop := ∃ y, IsAttr dm x.1 x.2 .actual y ∧ y.value = some val

/-- The variable says true, in whatever case. -/
def SaysTrue (dm : DM) (x : CV) : Prop := ∃ val, Value dm x val ∧ SameIgnoringCase val "true".toList

/-- The variables every 2.x charging station must have a value for: controller, variable, instance. -/
def RequiredNames : List (String × List (String × List String)) := [
  ("AlignedDataCtrlr", [("Interval", []), ("Measurands", []), ("TxEndedInterval", []), ("TxEndedMeasurands", [])]),
  ("AuthCtrlr", [("AuthorizeRemoteStart", []), ("LocalAuthorizeOffline", []), ("LocalPreAuthorize", [])]),
  ("ChargingStation", [("AvailabilityState", []), ("Available", []), ("SupplyPhases", [])]),
  ("ClockCtrlr", [("DateTime", []), ("TimeSource", [])]),
  ("DeviceDataCtrlr", [("BytesPerMessage", ["GetReport", "GetVariables", "SetVariables"]),
    ("ItemsPerMessage", ["GetReport", "GetVariables", "SetVariables"])]),
  ("InternalCtrlr", [("ChargeBoxSerialNumber", []), ("ChargePointId", []), ("ChargePointModel", []),
    ("ChargePointVendor", []), ("FirmwareVersion", []), ("LogMessagesFormat", []),
    ("NetworkConnectionProfiles", []), ("NumberOfConnectors", []), ("SupportedCiphers12", []),
    ("SupportedCiphers13", []), ("SupportedOcppVersions", [])]),
  ("ISO15118Ctrlr", [("ContractValidationOffline", [])]),
  ("OCPPCommCtrlr", [("FileTransferProtocols", []), ("MessageAttemptInterval", ["TransactionEvent"]),
    ("MessageAttempts", ["TransactionEvent"]), ("MessageTimeout", ["Default"]),
    ("NetworkConfigurationPriority", []), ("NetworkProfileConnectionAttempts", []), ("OfflineThreshold", []),
    ("ResetRetries", []), ("RetryBackOffRandomRange", []), ("RetryBackOffRepeatTimes", []),
    ("RetryBackOffWaitMinimum", []), ("UnlockOnEVSideDisconnect", []), ("WebSocketPingInterval", [])]),
  ("SampledDataCtrlr", [("TxEndedInterval", []), ("TxEndedMeasurands", []), ("TxStartedMeasurands", []),
    ("TxUpdatedInterval", []), ("TxUpdatedMeasurands", [])]),
  ("SecurityCtrlr", [("CertificateEntries", []), ("Identity", []), ("OrganizationName", []),
    ("SecurityProfile", [])]),
  ("TxCtrlr", [("EVConnectionTimeOut", []), ("StopTxOnEVSideDisconnect", []), ("StopTxOnInvalidId", []),
    ("TxStartPoint", []), ("TxStopPoint", [])])]

/-- The variables that are needed only if a controller is available: the controller, the instance of its
variable Available, and its variables with their instances. -/
def OptionalNames : List (String × Option String × List (String × Option String)) := [
  ("DisplayMessageCtrlr", none,
    [("DisplayMessages", none), ("SupportedFormats", none), ("SupportedPriorities", none)]),
  ("LocalAuthListCtrlr", none, [("BytesPerMessage", none), ("Entries", none), ("ItemsPerMessage", none)]),
  ("MonitoringCtrlr", none,
    [("BytesPerMessage", some "SetVariableMonitoring"), ("ItemsPerMessage", some "SetVariableMonitoring")]),
  ("SmartChargingCtrlr", none,
    [("CompositeScheduleDefaultLimitAmps", none), ("CompositeScheduleDefaultLimitWatts", none),
     ("CompositeScheduleDefaultNumberPhases", none), ("Entries", some "ChargingProfiles"),
     ("LimitChangeSignificance", none), ("PeriodsPerSchedule", none), ("ProfileStackLevel", none),
     ("RateUnit", none), ("SupplyVoltage", none)]),
  ("TariffCostCtrlr", some "Cost", [("Currency", none), ("TotalCostFallbackMessage", none)]),
  ("TariffCostCtrlr", some "Tariff", [("TariffFallbackMessage", none)])]

/-- The variable of a controller with these names. -/
def named (c v : String) (i : Option String) : CV := (⟨c.toList, none, none⟩, ⟨v.toList, i.map String.toList⟩)

/-- `x` is one of the variables every 2.x charging station must have a value for. -/
def AlwaysRequired (x : CV) : Prop :=
  ∃ p ∈ RequiredNames, ∃ q ∈ p.2, (q.2 = [] ∧ x = named p.1 q.1 none) ∨ ∃ i ∈ q.2, x = named p.1 q.1 (some i)

/-- `x` is needed if the variable `a` says that its controller is available. -/
def RequiredWith (a x : CV) : Prop :=
  ∃ p ∈ OptionalNames, a = named p.1 "Available" p.2.1 ∧ ∃ q ∈ p.2.2, x = named p.1 q.1 q.2

/-- The charging station says that it supports this version. -/
def Supports (dm : DM) (name : String) : Prop :=
  ∃ csl, Value dm (named "InternalCtrlr" "SupportedOcppVersions" none) csl ∧ Piece name.toList csl

/-- It says that it supports OCPP 2.0.1 or 2.1. -/
def Supports2 (dm : DM) : Prop := Supports dm "ocpp2.0.1" ∨ Supports dm "ocpp2.1"

/-- A name of a version the code knows is listed. -/
def SupportsKnown (dm : DM) : Prop :=
  Supports2 dm ∨ Supports dm "ocpp1.6" ∨ Supports dm "unknown"

/-- What the charging station needs given what is available at this moment. -/
def Needed (dm : DM) (x : CV) : Prop := AlwaysRequired x ∨ ∃ a, RequiredWith a x ∧ SaysTrue dm a

/-- The component is part of the device model. -/
def Present (dm : DM) (c : Comp) : Prop := ∃ e ∈ dm, e.comp = c

def vbl (v : String) : Vbl := ⟨v.toList, none⟩

/-- EVSE `i` is described: availability and phases have values, the power has an upper limit. -/
structure EvseComplete (dm : DM) (i : Int) : Prop where
  values : ∀ v ∈ ["Available", "AvailabilityState", "SupplyPhases"],
    HasValue dm (⟨"EVSE".toList, none, some (i, none)⟩, vbl v)
  power : ∃ e ∈ dm, e.comp = ⟨"EVSE".toList, none, some (i, none)⟩ ∧ e.var = vbl "Power" ∧ e.chars.maxLimit ≠ none

/-- Connector `k` of EVSE `i` is described. -/
def ConnectorComplete (dm : DM) (i k : Int) : Prop :=
  ∀ v ∈ ["Available", "AvailabilityState", "SupplyPhases", "ConnectorType"],
    HasValue dm (⟨"Connector".toList, none, some (i, some k)⟩, vbl v)

/-- The V2X controller of EVSE `i` is described. -/
def V2xComplete (dm : DM) (i : Int) : Prop :=
  ∀ v ∈ ["Available", "Enabled", "SupportedEnergyTransferModes", "SupportedOperationModes"],
    HasValue dm (⟨"V2XChargingCtrlr".toList, none, some (i, none)⟩, vbl v)

/-- V2X is available at EVSE `i`. -/
def V2xAvailable (dm : DM) (i : Int) : Prop :=
  SaysTrue dm (⟨"V2XChargingCtrlr".toList, none, some (i, none)⟩, vbl "Available")

/-- The EVSEs and connectors of the device model are those of the charging station. -/
structure SameStructure (dm : DM) (st : List (Int × Int)) : Prop where
  stray : ∀ c, Present dm c → c.name = "Connector".toList → c.evse ≠ none
  evses : ∀ c, Present dm c → c.name = "EVSE".toList → ∃ i n, (i, n) ∈ st ∧ c = ⟨"EVSE".toList, none, some (i, none)⟩
  connectors : ∀ i n, (i, n) ∈ st → 0 ≤ n ∧ ∀ c, Present dm c → c.name = "Connector".toList →
    c.evse.map (·.1) = some i → ∃ k, 1 ≤ k ∧ k ≤ n ∧ c = ⟨"Connector".toList, none, some (i, some k)⟩

/-- The device model is complete for a charging station with these EVSEs and numbers of connectors. -/
structure Complete (dm : DM) (st : List (Int × Int)) : Prop where
  versions : SupportsKnown dm
  values : Supports2 dm → ∀ x, Needed dm x → HasValue dm x
  same : SameStructure dm st
  evse : ∀ i n, (i, n) ∈ st → EvseComplete dm i
  connector : ∀ i n, (i, n) ∈ st → ∀ k, 1 ≤ k → k ≤ n → ConnectorComplete dm i k
  v2x : ∀ i n, (i, n) ∈ st → V2xAvailable dm i → V2xComplete dm i

/-- A value of the type of the variable, numbers within the range the code can read. -/
def OfType (ch : Chars) (val : Str) : Prop :=
  Admits { ch with minLimit := none, maxLimit := none } True val ∧
  (ch.dataType = .integer → ∃ n, IsIntegerText val n ∧ -2 ^ 31 ≤ n ∧ n < 2 ^ 31)

/-- Every value of the device model is of the type of its variable. -/
def Typed (dm : DM) : Prop := ∀ e ∈ dm, ∀ a ∈ e.attrs, ∀ val, a.value = some val → OfType e.chars val

end Verif.Req2
