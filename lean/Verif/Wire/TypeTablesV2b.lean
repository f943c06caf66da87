import Verif.Wire.TypeModel

/-!
Generated from the declarations and conversions of the structs of OCPP 2.0.1 and 2.1, by a script that reads the text of the cited files: the members
declared in the header ⟨name, optional, vector, type⟩, and the statements of `to_json` and of `from_json` ⟨key, member, under `if`, in a loop, conversion⟩.
-/

namespace Verif.Wire

/-- `Address`, include/ocpp/v2/ocpp_types.hpp l.1546; `to_json`, lib/ocpp/v2/ocpp_types.cpp l.4540-4558; `from_json`, l.4561-4578. -/
def t_v2_Address : TypeTable :=
  { name := "v2.Address",
    fields :=
      [⟨"name", false, false, .str (some 50)⟩,
       ⟨"address1", false, false, .str (some 100)⟩,
       ⟨"city", false, false, .str (some 100)⟩,
       ⟨"country", false, false, .str (some 50)⟩,
       ⟨"address2", true, false, .str (some 100)⟩,
       ⟨"postalCode", true, false, .str (some 20)⟩,
       ⟨"customData", true, false, .json⟩],
    toJ :=
      [⟨"name", "name", false, false, .plain⟩,
       ⟨"address1", "address1", false, false, .plain⟩,
       ⟨"city", "city", false, false, .plain⟩,
       ⟨"country", "country", false, false, .plain⟩,
       ⟨"address2", "address2", true, false, .plain⟩,
       ⟨"postalCode", "postalCode", true, false, .plain⟩,
       ⟨"customData", "customData", true, false, .plain⟩],
    fromJ :=
      [⟨"name", "name", false, false, .plain⟩,
       ⟨"address1", "address1", false, false, .plain⟩,
       ⟨"city", "city", false, false, .plain⟩,
       ⟨"country", "country", false, false, .plain⟩,
       ⟨"address2", "address2", true, false, .plain⟩,
       ⟨"postalCode", "postalCode", true, false, .plain⟩,
       ⟨"customData", "customData", true, false, .plain⟩] }

/-- `ChargingScheduleUpdate`, include/ocpp/v2/ocpp_types.hpp l.1565; `to_json`, lib/ocpp/v2/ocpp_types.cpp l.4588-4631; `from_json`, l.4634-4677. -/
def t_v2_ChargingScheduleUpdate : TypeTable :=
  { name := "v2.ChargingScheduleUpdate",
    fields :=
      [⟨"limit", true, false, .num⟩,
       ⟨"limit_L2", true, false, .num⟩,
       ⟨"limit_L3", true, false, .num⟩,
       ⟨"dischargeLimit", true, false, .num⟩,
       ⟨"dischargeLimit_L2", true, false, .num⟩,
       ⟨"dischargeLimit_L3", true, false, .num⟩,
       ⟨"setpoint", true, false, .num⟩,
       ⟨"setpoint_L2", true, false, .num⟩,
       ⟨"setpoint_L3", true, false, .num⟩,
       ⟨"setpointReactive", true, false, .num⟩,
       ⟨"setpointReactive_L2", true, false, .num⟩,
       ⟨"setpointReactive_L3", true, false, .num⟩,
       ⟨"customData", true, false, .json⟩],
    toJ :=
      [⟨"limit", "limit", true, false, .plain⟩,
       ⟨"limit_L2", "limit_L2", true, false, .plain⟩,
       ⟨"limit_L3", "limit_L3", true, false, .plain⟩,
       ⟨"dischargeLimit", "dischargeLimit", true, false, .plain⟩,
       ⟨"dischargeLimit_L2", "dischargeLimit_L2", true, false, .plain⟩,
       ⟨"dischargeLimit_L3", "dischargeLimit_L3", true, false, .plain⟩,
       ⟨"setpoint", "setpoint", true, false, .plain⟩,
       ⟨"setpoint_L2", "setpoint_L2", true, false, .plain⟩,
       ⟨"setpoint_L3", "setpoint_L3", true, false, .plain⟩,
       ⟨"setpointReactive", "setpointReactive", true, false, .plain⟩,
       ⟨"setpointReactive_L2", "setpointReactive_L2", true, false, .plain⟩,
       ⟨"setpointReactive_L3", "setpointReactive_L3", true, false, .plain⟩,
       ⟨"customData", "customData", true, false, .plain⟩],
    fromJ :=
      [⟨"limit", "limit", true, false, .plain⟩,
       ⟨"limit_L2", "limit_L2", true, false, .plain⟩,
       ⟨"limit_L3", "limit_L3", true, false, .plain⟩,
       ⟨"dischargeLimit", "dischargeLimit", true, false, .plain⟩,
       ⟨"dischargeLimit_L2", "dischargeLimit_L2", true, false, .plain⟩,
       ⟨"dischargeLimit_L3", "dischargeLimit_L3", true, false, .plain⟩,
       ⟨"setpoint", "setpoint", true, false, .plain⟩,
       ⟨"setpoint_L2", "setpoint_L2", true, false, .plain⟩,
       ⟨"setpoint_L3", "setpoint_L3", true, false, .plain⟩,
       ⟨"setpointReactive", "setpointReactive", true, false, .plain⟩,
       ⟨"setpointReactive_L2", "setpointReactive_L2", true, false, .plain⟩,
       ⟨"setpointReactive_L3", "setpointReactive_L3", true, false, .plain⟩,
       ⟨"customData", "customData", true, false, .plain⟩] }

/-- `ChargingProfile`, include/ocpp/v2/ocpp_types.hpp l.1590; `to_json`, lib/ocpp/v2/ocpp_types.cpp l.4687-4727; `from_json`, l.4730-4771. -/
def t_v2_ChargingProfile : TypeTable :=
  { name := "v2.ChargingProfile",
    fields :=
      [⟨"id", false, false, .int⟩,
       ⟨"stackLevel", false, false, .int⟩,
       ⟨"chargingProfilePurpose", false, false, .enum "v2.ChargingProfilePurposeEnum"⟩,
       ⟨"chargingProfileKind", false, false, .enum "v2.ChargingProfileKindEnum"⟩,
       ⟨"chargingSchedule", false, true, .struct "v2.ChargingSchedule"⟩,
       ⟨"recurrencyKind", true, false, .enum "v2.RecurrencyKindEnum"⟩,
       ⟨"validFrom", true, false, .time⟩,
       ⟨"validTo", true, false, .time⟩,
       ⟨"transactionId", true, false, .str (some 36)⟩,
       ⟨"maxOfflineDuration", true, false, .int⟩,
       ⟨"invalidAfterOfflineDuration", true, false, .bool⟩,
       ⟨"dynUpdateInterval", true, false, .int⟩,
       ⟨"dynUpdateTime", true, false, .time⟩,
       ⟨"priceScheduleSignature", true, false, .str (some 256)⟩,
       ⟨"customData", true, false, .json⟩],
    toJ :=
      [⟨"id", "id", false, false, .plain⟩,
       ⟨"stackLevel", "stackLevel", false, false, .plain⟩,
       ⟨"chargingProfilePurpose", "chargingProfilePurpose", false, false, (.enum "v2.ChargingProfilePurposeEnum")⟩,
       ⟨"chargingProfileKind", "chargingProfileKind", false, false, (.enum "v2.ChargingProfileKindEnum")⟩,
       ⟨"chargingSchedule", "chargingSchedule", false, false, .plain⟩,
       ⟨"recurrencyKind", "recurrencyKind", true, false, (.enum "v2.RecurrencyKindEnum")⟩,
       ⟨"validFrom", "validFrom", true, false, .time⟩,
       ⟨"validTo", "validTo", true, false, .time⟩,
       ⟨"transactionId", "transactionId", true, false, .plain⟩,
       ⟨"maxOfflineDuration", "maxOfflineDuration", true, false, .plain⟩,
       ⟨"invalidAfterOfflineDuration", "invalidAfterOfflineDuration", true, false, .plain⟩,
       ⟨"dynUpdateInterval", "dynUpdateInterval", true, false, .plain⟩,
       ⟨"dynUpdateTime", "dynUpdateTime", true, false, .time⟩,
       ⟨"priceScheduleSignature", "priceScheduleSignature", true, false, .plain⟩,
       ⟨"customData", "customData", true, false, .plain⟩],
    fromJ :=
      [⟨"id", "id", false, false, .plain⟩,
       ⟨"stackLevel", "stackLevel", false, false, .plain⟩,
       ⟨"chargingProfilePurpose", "chargingProfilePurpose", false, false, (.enum "v2.ChargingProfilePurposeEnum")⟩,
       ⟨"chargingProfileKind", "chargingProfileKind", false, false, (.enum "v2.ChargingProfileKindEnum")⟩,
       ⟨"chargingSchedule", "chargingSchedule", false, true, .plain⟩,
       ⟨"recurrencyKind", "recurrencyKind", true, false, (.enum "v2.RecurrencyKindEnum")⟩,
       ⟨"validFrom", "validFrom", true, false, .time⟩,
       ⟨"validTo", "validTo", true, false, .time⟩,
       ⟨"transactionId", "transactionId", true, false, .plain⟩,
       ⟨"maxOfflineDuration", "maxOfflineDuration", true, false, .plain⟩,
       ⟨"invalidAfterOfflineDuration", "invalidAfterOfflineDuration", true, false, .plain⟩,
       ⟨"dynUpdateInterval", "dynUpdateInterval", true, false, .plain⟩,
       ⟨"dynUpdateTime", "dynUpdateTime", true, false, .time⟩,
       ⟨"priceScheduleSignature", "priceScheduleSignature", true, false, .plain⟩,
       ⟨"customData", "customData", true, false, .plain⟩] }

/-- `DERCurvePoints`, include/ocpp/v2/ocpp_types.hpp l.1617; `to_json`, lib/ocpp/v2/ocpp_types.cpp l.4781-4791; `from_json`, l.4794-4803. -/
def t_v2_DERCurvePoints : TypeTable :=
  { name := "v2.DERCurvePoints",
    fields :=
      [⟨"x", false, false, .num⟩,
       ⟨"y", false, false, .num⟩,
       ⟨"customData", true, false, .json⟩],
    toJ :=
      [⟨"x", "x", false, false, .plain⟩,
       ⟨"y", "y", false, false, .plain⟩,
       ⟨"customData", "customData", true, false, .plain⟩],
    fromJ :=
      [⟨"x", "x", false, false, .plain⟩,
       ⟨"y", "y", false, false, .plain⟩,
       ⟨"customData", "customData", true, false, .plain⟩] }

/-- `Hysteresis`, include/ocpp/v2/ocpp_types.hpp l.1632; `to_json`, lib/ocpp/v2/ocpp_types.cpp l.4813-4832; `from_json`, l.4835-4854. -/
def t_v2_Hysteresis : TypeTable :=
  { name := "v2.Hysteresis",
    fields :=
      [⟨"hysteresisHigh", true, false, .num⟩,
       ⟨"hysteresisLow", true, false, .num⟩,
       ⟨"hysteresisDelay", true, false, .num⟩,
       ⟨"hysteresisGradient", true, false, .num⟩,
       ⟨"customData", true, false, .json⟩],
    toJ :=
      [⟨"hysteresisHigh", "hysteresisHigh", true, false, .plain⟩,
       ⟨"hysteresisLow", "hysteresisLow", true, false, .plain⟩,
       ⟨"hysteresisDelay", "hysteresisDelay", true, false, .plain⟩,
       ⟨"hysteresisGradient", "hysteresisGradient", true, false, .plain⟩,
       ⟨"customData", "customData", true, false, .plain⟩],
    fromJ :=
      [⟨"hysteresisHigh", "hysteresisHigh", true, false, .plain⟩,
       ⟨"hysteresisLow", "hysteresisLow", true, false, .plain⟩,
       ⟨"hysteresisDelay", "hysteresisDelay", true, false, .plain⟩,
       ⟨"hysteresisGradient", "hysteresisGradient", true, false, .plain⟩,
       ⟨"customData", "customData", true, false, .plain⟩] }

/-- `ReactivePowerParams`, include/ocpp/v2/ocpp_types.hpp l.1649; `to_json`, lib/ocpp/v2/ocpp_types.cpp l.4864-4880; `from_json`, l.4883-4899. -/
def t_v2_ReactivePowerParams : TypeTable :=
  { name := "v2.ReactivePowerParams",
    fields :=
      [⟨"vRef", true, false, .num⟩,
       ⟨"autonomousVRefEnable", true, false, .bool⟩,
       ⟨"autonomousVRefTimeConstant", true, false, .num⟩,
       ⟨"customData", true, false, .json⟩],
    toJ :=
      [⟨"vRef", "vRef", true, false, .plain⟩,
       ⟨"autonomousVRefEnable", "autonomousVRefEnable", true, false, .plain⟩,
       ⟨"autonomousVRefTimeConstant", "autonomousVRefTimeConstant", true, false, .plain⟩,
       ⟨"customData", "customData", true, false, .plain⟩],
    fromJ :=
      [⟨"vRef", "vRef", true, false, .plain⟩,
       ⟨"autonomousVRefEnable", "autonomousVRefEnable", true, false, .plain⟩,
       ⟨"autonomousVRefTimeConstant", "autonomousVRefTimeConstant", true, false, .plain⟩,
       ⟨"customData", "customData", true, false, .plain⟩] }

/-- `VoltageParams`, include/ocpp/v2/ocpp_types.hpp l.1665; `to_json`, lib/ocpp/v2/ocpp_types.cpp l.4909-4925; `from_json`, l.4928-4945. -/
def t_v2_VoltageParams : TypeTable :=
  { name := "v2.VoltageParams",
    fields :=
      [⟨"hv10MinMeanValue", true, false, .num⟩,
       ⟨"hv10MinMeanTripDelay", true, false, .num⟩,
       ⟨"powerDuringCessation", true, false, .enum "v2.PowerDuringCessationEnum"⟩,
       ⟨"customData", true, false, .json⟩],
    toJ :=
      [⟨"hv10MinMeanValue", "hv10MinMeanValue", true, false, .plain⟩,
       ⟨"hv10MinMeanTripDelay", "hv10MinMeanTripDelay", true, false, .plain⟩,
       ⟨"powerDuringCessation", "powerDuringCessation", true, false, (.enum "v2.PowerDuringCessationEnum")⟩,
       ⟨"customData", "customData", true, false, .plain⟩],
    fromJ :=
      [⟨"hv10MinMeanValue", "hv10MinMeanValue", true, false, .plain⟩,
       ⟨"hv10MinMeanTripDelay", "hv10MinMeanTripDelay", true, false, .plain⟩,
       ⟨"powerDuringCessation", "powerDuringCessation", true, false, (.enum "v2.PowerDuringCessationEnum")⟩,
       ⟨"customData", "customData", true, false, .plain⟩] }

/-- `DERCurve`, include/ocpp/v2/ocpp_types.hpp l.1681; `to_json`, lib/ocpp/v2/ocpp_types.cpp l.4955-4984; `from_json`, l.4987-5017. -/
def t_v2_DERCurve : TypeTable :=
  { name := "v2.DERCurve",
    fields :=
      [⟨"curveData", false, true, .struct "v2.DERCurvePoints"⟩,
       ⟨"priority", false, false, .int⟩,
       ⟨"yUnit", false, false, .enum "v2.DERUnitEnum"⟩,
       ⟨"hysteresis", true, false, .struct "v2.Hysteresis"⟩,
       ⟨"reactivePowerParams", true, false, .struct "v2.ReactivePowerParams"⟩,
       ⟨"voltageParams", true, false, .struct "v2.VoltageParams"⟩,
       ⟨"responseTime", true, false, .num⟩,
       ⟨"startTime", true, false, .time⟩,
       ⟨"duration", true, false, .num⟩,
       ⟨"customData", true, false, .json⟩],
    toJ :=
      [⟨"curveData", "curveData", false, false, .plain⟩,
       ⟨"priority", "priority", false, false, .plain⟩,
       ⟨"yUnit", "yUnit", false, false, (.enum "v2.DERUnitEnum")⟩,
       ⟨"hysteresis", "hysteresis", true, false, .plain⟩,
       ⟨"reactivePowerParams", "reactivePowerParams", true, false, .plain⟩,
       ⟨"voltageParams", "voltageParams", true, false, .plain⟩,
       ⟨"responseTime", "responseTime", true, false, .plain⟩,
       ⟨"startTime", "startTime", true, false, .time⟩,
       ⟨"duration", "duration", true, false, .plain⟩,
       ⟨"customData", "customData", true, false, .plain⟩],
    fromJ :=
      [⟨"curveData", "curveData", false, true, .plain⟩,
       ⟨"priority", "priority", false, false, .plain⟩,
       ⟨"yUnit", "yUnit", false, false, (.enum "v2.DERUnitEnum")⟩,
       ⟨"hysteresis", "hysteresis", true, false, .plain⟩,
       ⟨"reactivePowerParams", "reactivePowerParams", true, false, .plain⟩,
       ⟨"voltageParams", "voltageParams", true, false, .plain⟩,
       ⟨"responseTime", "responseTime", true, false, .plain⟩,
       ⟨"startTime", "startTime", true, false, .time⟩,
       ⟨"duration", "duration", true, false, .plain⟩,
       ⟨"customData", "customData", true, false, .plain⟩] }

/-- `DERCurveGet`, include/ocpp/v2/ocpp_types.hpp l.1703; `to_json`, lib/ocpp/v2/ocpp_types.cpp l.5027-5040; `from_json`, l.5043-5055. -/
def t_v2_DERCurveGet : TypeTable :=
  { name := "v2.DERCurveGet",
    fields :=
      [⟨"curve", false, false, .struct "v2.DERCurve"⟩,
       ⟨"id", false, false, .str (some 36)⟩,
       ⟨"curveType", false, false, .enum "v2.DERControlEnum"⟩,
       ⟨"isDefault", false, false, .bool⟩,
       ⟨"isSuperseded", false, false, .bool⟩,
       ⟨"customData", true, false, .json⟩],
    toJ :=
      [⟨"curve", "curve", false, false, .plain⟩,
       ⟨"id", "id", false, false, .plain⟩,
       ⟨"curveType", "curveType", false, false, (.enum "v2.DERControlEnum")⟩,
       ⟨"isDefault", "isDefault", false, false, .plain⟩,
       ⟨"isSuperseded", "isSuperseded", false, false, .plain⟩,
       ⟨"customData", "customData", true, false, .plain⟩],
    fromJ :=
      [⟨"curve", "curve", false, false, .plain⟩,
       ⟨"id", "id", false, false, .plain⟩,
       ⟨"curveType", "curveType", false, false, (.enum "v2.DERControlEnum")⟩,
       ⟨"isDefault", "isDefault", false, false, .plain⟩,
       ⟨"isSuperseded", "isSuperseded", false, false, .plain⟩,
       ⟨"customData", "customData", true, false, .plain⟩] }

/-- `EnterService`, include/ocpp/v2/ocpp_types.hpp l.1721; `to_json`, lib/ocpp/v2/ocpp_types.cpp l.5065-5084; `from_json`, l.5087-5108. -/
def t_v2_EnterService : TypeTable :=
  { name := "v2.EnterService",
    fields :=
      [⟨"priority", false, false, .int⟩,
       ⟨"highVoltage", false, false, .num⟩,
       ⟨"lowVoltage", false, false, .num⟩,
       ⟨"highFreq", false, false, .num⟩,
       ⟨"lowFreq", false, false, .num⟩,
       ⟨"delay", true, false, .num⟩,
       ⟨"randomDelay", true, false, .num⟩,
       ⟨"rampRate", true, false, .num⟩,
       ⟨"customData", true, false, .json⟩],
    toJ :=
      [⟨"priority", "priority", false, false, .plain⟩,
       ⟨"highVoltage", "highVoltage", false, false, .plain⟩,
       ⟨"lowVoltage", "lowVoltage", false, false, .plain⟩,
       ⟨"highFreq", "highFreq", false, false, .plain⟩,
       ⟨"lowFreq", "lowFreq", false, false, .plain⟩,
       ⟨"delay", "delay", true, false, .plain⟩,
       ⟨"randomDelay", "randomDelay", true, false, .plain⟩,
       ⟨"rampRate", "rampRate", true, false, .plain⟩,
       ⟨"customData", "customData", true, false, .plain⟩],
    fromJ :=
      [⟨"priority", "priority", false, false, .plain⟩,
       ⟨"highVoltage", "highVoltage", false, false, .plain⟩,
       ⟨"lowVoltage", "lowVoltage", false, false, .plain⟩,
       ⟨"highFreq", "highFreq", false, false, .plain⟩,
       ⟨"lowFreq", "lowFreq", false, false, .plain⟩,
       ⟨"delay", "delay", true, false, .plain⟩,
       ⟨"randomDelay", "randomDelay", true, false, .plain⟩,
       ⟨"rampRate", "rampRate", true, false, .plain⟩,
       ⟨"customData", "customData", true, false, .plain⟩] }

/-- `EnterServiceGet`, include/ocpp/v2/ocpp_types.hpp l.1742; `to_json`, lib/ocpp/v2/ocpp_types.cpp l.5118-5128; `from_json`, l.5131-5140. -/
def t_v2_EnterServiceGet : TypeTable :=
  { name := "v2.EnterServiceGet",
    fields :=
      [⟨"enterService", false, false, .struct "v2.EnterService"⟩,
       ⟨"id", false, false, .str (some 36)⟩,
       ⟨"customData", true, false, .json⟩],
    toJ :=
      [⟨"enterService", "enterService", false, false, .plain⟩,
       ⟨"id", "id", false, false, .plain⟩,
       ⟨"customData", "customData", true, false, .plain⟩],
    fromJ :=
      [⟨"enterService", "enterService", false, false, .plain⟩,
       ⟨"id", "id", false, false, .plain⟩,
       ⟨"customData", "customData", true, false, .plain⟩] }

/-- `FixedPF`, include/ocpp/v2/ocpp_types.hpp l.1757; `to_json`, lib/ocpp/v2/ocpp_types.cpp l.5150-5167; `from_json`, l.5170-5186. -/
def t_v2_FixedPF : TypeTable :=
  { name := "v2.FixedPF",
    fields :=
      [⟨"priority", false, false, .int⟩,
       ⟨"displacement", false, false, .num⟩,
       ⟨"excitation", false, false, .bool⟩,
       ⟨"startTime", true, false, .time⟩,
       ⟨"duration", true, false, .num⟩,
       ⟨"customData", true, false, .json⟩],
    toJ :=
      [⟨"priority", "priority", false, false, .plain⟩,
       ⟨"displacement", "displacement", false, false, .plain⟩,
       ⟨"excitation", "excitation", false, false, .plain⟩,
       ⟨"startTime", "startTime", true, false, .time⟩,
       ⟨"duration", "duration", true, false, .plain⟩,
       ⟨"customData", "customData", true, false, .plain⟩],
    fromJ :=
      [⟨"priority", "priority", false, false, .plain⟩,
       ⟨"displacement", "displacement", false, false, .plain⟩,
       ⟨"excitation", "excitation", false, false, .plain⟩,
       ⟨"startTime", "startTime", true, false, .time⟩,
       ⟨"duration", "duration", true, false, .plain⟩,
       ⟨"customData", "customData", true, false, .plain⟩] }

/-- `FixedPFGet`, include/ocpp/v2/ocpp_types.hpp l.1775; `to_json`, lib/ocpp/v2/ocpp_types.cpp l.5196-5208; `from_json`, l.5211-5222. -/
def t_v2_FixedPFGet : TypeTable :=
  { name := "v2.FixedPFGet",
    fields :=
      [⟨"fixedPF", false, false, .struct "v2.FixedPF"⟩,
       ⟨"id", false, false, .str (some 36)⟩,
       ⟨"isDefault", false, false, .bool⟩,
       ⟨"isSuperseded", false, false, .bool⟩,
       ⟨"customData", true, false, .json⟩],
    toJ :=
      [⟨"fixedPF", "fixedPF", false, false, .plain⟩,
       ⟨"id", "id", false, false, .plain⟩,
       ⟨"isDefault", "isDefault", false, false, .plain⟩,
       ⟨"isSuperseded", "isSuperseded", false, false, .plain⟩,
       ⟨"customData", "customData", true, false, .plain⟩],
    fromJ :=
      [⟨"fixedPF", "fixedPF", false, false, .plain⟩,
       ⟨"id", "id", false, false, .plain⟩,
       ⟨"isDefault", "isDefault", false, false, .plain⟩,
       ⟨"isSuperseded", "isSuperseded", false, false, .plain⟩,
       ⟨"customData", "customData", true, false, .plain⟩] }

/-- `FixedVar`, include/ocpp/v2/ocpp_types.hpp l.1792; `to_json`, lib/ocpp/v2/ocpp_types.cpp l.5232-5249; `from_json`, l.5252-5268. -/
def t_v2_FixedVar : TypeTable :=
  { name := "v2.FixedVar",
    fields :=
      [⟨"priority", false, false, .int⟩,
       ⟨"setpoint", false, false, .num⟩,
       ⟨"unit", false, false, .enum "v2.DERUnitEnum"⟩,
       ⟨"startTime", true, false, .time⟩,
       ⟨"duration", true, false, .num⟩,
       ⟨"customData", true, false, .json⟩],
    toJ :=
      [⟨"priority", "priority", false, false, .plain⟩,
       ⟨"setpoint", "setpoint", false, false, .plain⟩,
       ⟨"unit", "unit", false, false, (.enum "v2.DERUnitEnum")⟩,
       ⟨"startTime", "startTime", true, false, .time⟩,
       ⟨"duration", "duration", true, false, .plain⟩,
       ⟨"customData", "customData", true, false, .plain⟩],
    fromJ :=
      [⟨"priority", "priority", false, false, .plain⟩,
       ⟨"setpoint", "setpoint", false, false, .plain⟩,
       ⟨"unit", "unit", false, false, (.enum "v2.DERUnitEnum")⟩,
       ⟨"startTime", "startTime", true, false, .time⟩,
       ⟨"duration", "duration", true, false, .plain⟩,
       ⟨"customData", "customData", true, false, .plain⟩] }

/-- `FixedVarGet`, include/ocpp/v2/ocpp_types.hpp l.1810; `to_json`, lib/ocpp/v2/ocpp_types.cpp l.5278-5290; `from_json`, l.5293-5304. -/
def t_v2_FixedVarGet : TypeTable :=
  { name := "v2.FixedVarGet",
    fields :=
      [⟨"fixedVar", false, false, .struct "v2.FixedVar"⟩,
       ⟨"id", false, false, .str (some 36)⟩,
       ⟨"isDefault", false, false, .bool⟩,
       ⟨"isSuperseded", false, false, .bool⟩,
       ⟨"customData", true, false, .json⟩],
    toJ :=
      [⟨"fixedVar", "fixedVar", false, false, .plain⟩,
       ⟨"id", "id", false, false, .plain⟩,
       ⟨"isDefault", "isDefault", false, false, .plain⟩,
       ⟨"isSuperseded", "isSuperseded", false, false, .plain⟩,
       ⟨"customData", "customData", true, false, .plain⟩],
    fromJ :=
      [⟨"fixedVar", "fixedVar", false, false, .plain⟩,
       ⟨"id", "id", false, false, .plain⟩,
       ⟨"isDefault", "isDefault", false, false, .plain⟩,
       ⟨"isSuperseded", "isSuperseded", false, false, .plain⟩,
       ⟨"customData", "customData", true, false, .plain⟩] }

/-- `FreqDroop`, include/ocpp/v2/ocpp_types.hpp l.1827; `to_json`, lib/ocpp/v2/ocpp_types.cpp l.5314-5330; `from_json`, l.5333-5352. -/
def t_v2_FreqDroop : TypeTable :=
  { name := "v2.FreqDroop",
    fields :=
      [⟨"priority", false, false, .int⟩,
       ⟨"overFreq", false, false, .num⟩,
       ⟨"underFreq", false, false, .num⟩,
       ⟨"overDroop", false, false, .num⟩,
       ⟨"underDroop", false, false, .num⟩,
       ⟨"responseTime", false, false, .num⟩,
       ⟨"startTime", true, false, .time⟩,
       ⟨"duration", true, false, .num⟩,
       ⟨"customData", true, false, .json⟩],
    toJ :=
      [⟨"priority", "priority", false, false, .plain⟩,
       ⟨"overFreq", "overFreq", false, false, .plain⟩,
       ⟨"underFreq", "underFreq", false, false, .plain⟩,
       ⟨"overDroop", "overDroop", false, false, .plain⟩,
       ⟨"underDroop", "underDroop", false, false, .plain⟩,
       ⟨"responseTime", "responseTime", false, false, .plain⟩,
       ⟨"startTime", "startTime", true, false, .time⟩,
       ⟨"duration", "duration", true, false, .plain⟩,
       ⟨"customData", "customData", true, false, .plain⟩],
    fromJ :=
      [⟨"priority", "priority", false, false, .plain⟩,
       ⟨"overFreq", "overFreq", false, false, .plain⟩,
       ⟨"underFreq", "underFreq", false, false, .plain⟩,
       ⟨"overDroop", "overDroop", false, false, .plain⟩,
       ⟨"underDroop", "underDroop", false, false, .plain⟩,
       ⟨"responseTime", "responseTime", false, false, .plain⟩,
       ⟨"startTime", "startTime", true, false, .time⟩,
       ⟨"duration", "duration", true, false, .plain⟩,
       ⟨"customData", "customData", true, false, .plain⟩] }

/-- `FreqDroopGet`, include/ocpp/v2/ocpp_types.hpp l.1848; `to_json`, lib/ocpp/v2/ocpp_types.cpp l.5362-5374; `from_json`, l.5377-5388. -/
def t_v2_FreqDroopGet : TypeTable :=
  { name := "v2.FreqDroopGet",
    fields :=
      [⟨"freqDroop", false, false, .struct "v2.FreqDroop"⟩,
       ⟨"id", false, false, .str (some 36)⟩,
       ⟨"isDefault", false, false, .bool⟩,
       ⟨"isSuperseded", false, false, .bool⟩,
       ⟨"customData", true, false, .json⟩],
    toJ :=
      [⟨"freqDroop", "freqDroop", false, false, .plain⟩,
       ⟨"id", "id", false, false, .plain⟩,
       ⟨"isDefault", "isDefault", false, false, .plain⟩,
       ⟨"isSuperseded", "isSuperseded", false, false, .plain⟩,
       ⟨"customData", "customData", true, false, .plain⟩],
    fromJ :=
      [⟨"freqDroop", "freqDroop", false, false, .plain⟩,
       ⟨"id", "id", false, false, .plain⟩,
       ⟨"isDefault", "isDefault", false, false, .plain⟩,
       ⟨"isSuperseded", "isSuperseded", false, false, .plain⟩,
       ⟨"customData", "customData", true, false, .plain⟩] }

/-- `Gradient`, include/ocpp/v2/ocpp_types.hpp l.1865; `to_json`, lib/ocpp/v2/ocpp_types.cpp l.5398-5409; `from_json`, l.5412-5422. -/
def t_v2_Gradient : TypeTable :=
  { name := "v2.Gradient",
    fields :=
      [⟨"priority", false, false, .int⟩,
       ⟨"gradient", false, false, .num⟩,
       ⟨"softGradient", false, false, .num⟩,
       ⟨"customData", true, false, .json⟩],
    toJ :=
      [⟨"priority", "priority", false, false, .plain⟩,
       ⟨"gradient", "gradient", false, false, .plain⟩,
       ⟨"softGradient", "softGradient", false, false, .plain⟩,
       ⟨"customData", "customData", true, false, .plain⟩],
    fromJ :=
      [⟨"priority", "priority", false, false, .plain⟩,
       ⟨"gradient", "gradient", false, false, .plain⟩,
       ⟨"softGradient", "softGradient", false, false, .plain⟩,
       ⟨"customData", "customData", true, false, .plain⟩] }

/-- `GradientGet`, include/ocpp/v2/ocpp_types.hpp l.1881; `to_json`, lib/ocpp/v2/ocpp_types.cpp l.5432-5442; `from_json`, l.5445-5454. -/
def t_v2_GradientGet : TypeTable :=
  { name := "v2.GradientGet",
    fields :=
      [⟨"gradient", false, false, .struct "v2.Gradient"⟩,
       ⟨"id", false, false, .str (some 36)⟩,
       ⟨"customData", true, false, .json⟩],
    toJ :=
      [⟨"gradient", "gradient", false, false, .plain⟩,
       ⟨"id", "id", false, false, .plain⟩,
       ⟨"customData", "customData", true, false, .plain⟩],
    fromJ :=
      [⟨"gradient", "gradient", false, false, .plain⟩,
       ⟨"id", "id", false, false, .plain⟩,
       ⟨"customData", "customData", true, false, .plain⟩] }

/-- `LimitMaxDischarge`, include/ocpp/v2/ocpp_types.hpp l.1896; `to_json`, lib/ocpp/v2/ocpp_types.cpp l.5464-5485; `from_json`, l.5488-5508. -/
def t_v2_LimitMaxDischarge : TypeTable :=
  { name := "v2.LimitMaxDischarge",
    fields :=
      [⟨"priority", false, false, .int⟩,
       ⟨"pctMaxDischargePower", true, false, .num⟩,
       ⟨"powerMonitoringMustTrip", true, false, .struct "v2.DERCurve"⟩,
       ⟨"startTime", true, false, .time⟩,
       ⟨"duration", true, false, .num⟩,
       ⟨"customData", true, false, .json⟩],
    toJ :=
      [⟨"priority", "priority", false, false, .plain⟩,
       ⟨"pctMaxDischargePower", "pctMaxDischargePower", true, false, .plain⟩,
       ⟨"powerMonitoringMustTrip", "powerMonitoringMustTrip", true, false, .plain⟩,
       ⟨"startTime", "startTime", true, false, .time⟩,
       ⟨"duration", "duration", true, false, .plain⟩,
       ⟨"customData", "customData", true, false, .plain⟩],
    fromJ :=
      [⟨"priority", "priority", false, false, .plain⟩,
       ⟨"pctMaxDischargePower", "pctMaxDischargePower", true, false, .plain⟩,
       ⟨"powerMonitoringMustTrip", "powerMonitoringMustTrip", true, false, .plain⟩,
       ⟨"startTime", "startTime", true, false, .time⟩,
       ⟨"duration", "duration", true, false, .plain⟩,
       ⟨"customData", "customData", true, false, .plain⟩] }

/-- `LimitMaxDischargeGet`, include/ocpp/v2/ocpp_types.hpp l.1914; `to_json`, lib/ocpp/v2/ocpp_types.cpp l.5518-5530; `from_json`, l.5533-5544. -/
def t_v2_LimitMaxDischargeGet : TypeTable :=
  { name := "v2.LimitMaxDischargeGet",
    fields :=
      [⟨"id", false, false, .str (some 36)⟩,
       ⟨"isDefault", false, false, .bool⟩,
       ⟨"isSuperseded", false, false, .bool⟩,
       ⟨"limitMaxDischarge", false, false, .struct "v2.LimitMaxDischarge"⟩,
       ⟨"customData", true, false, .json⟩],
    toJ :=
      [⟨"id", "id", false, false, .plain⟩,
       ⟨"isDefault", "isDefault", false, false, .plain⟩,
       ⟨"isSuperseded", "isSuperseded", false, false, .plain⟩,
       ⟨"limitMaxDischarge", "limitMaxDischarge", false, false, .plain⟩,
       ⟨"customData", "customData", true, false, .plain⟩],
    fromJ :=
      [⟨"id", "id", false, false, .plain⟩,
       ⟨"isDefault", "isDefault", false, false, .plain⟩,
       ⟨"isSuperseded", "isSuperseded", false, false, .plain⟩,
       ⟨"limitMaxDischarge", "limitMaxDischarge", false, false, .plain⟩,
       ⟨"customData", "customData", true, false, .plain⟩] }

/-- `AuthorizationData`, include/ocpp/v2/ocpp_types.hpp l.1931; `to_json`, lib/ocpp/v2/ocpp_types.cpp l.5554-5566; `from_json`, l.5569-5580. -/
def t_v2_AuthorizationData : TypeTable :=
  { name := "v2.AuthorizationData",
    fields :=
      [⟨"idToken", false, false, .struct "v2.IdToken"⟩,
       ⟨"idTokenInfo", true, false, .struct "v2.IdTokenInfo"⟩,
       ⟨"customData", true, false, .json⟩],
    toJ :=
      [⟨"idToken", "idToken", false, false, .plain⟩,
       ⟨"idTokenInfo", "idTokenInfo", true, false, .plain⟩,
       ⟨"customData", "customData", true, false, .plain⟩],
    fromJ :=
      [⟨"idToken", "idToken", false, false, .plain⟩,
       ⟨"idTokenInfo", "idTokenInfo", true, false, .plain⟩,
       ⟨"customData", "customData", true, false, .plain⟩] }

/-- `APN`, include/ocpp/v2/ocpp_types.hpp l.1946; `to_json`, lib/ocpp/v2/ocpp_types.cpp l.5590-5615; `from_json`, l.5618-5642. -/
def t_v2_APN : TypeTable :=
  { name := "v2.APN",
    fields :=
      [⟨"apn", false, false, .str (some 2000)⟩,
       ⟨"apnAuthentication", false, false, .enum "v2.APNAuthenticationEnum"⟩,
       ⟨"apnUserName", true, false, .str (some 50)⟩,
       ⟨"apnPassword", true, false, .str (some 64)⟩,
       ⟨"simPin", true, false, .int⟩,
       ⟨"preferredNetwork", true, false, .str (some 6)⟩,
       ⟨"useOnlyPreferredNetwork", true, false, .bool⟩,
       ⟨"customData", true, false, .json⟩],
    toJ :=
      [⟨"apn", "apn", false, false, .plain⟩,
       ⟨"apnAuthentication", "apnAuthentication", false, false, (.enum "v2.APNAuthenticationEnum")⟩,
       ⟨"apnUserName", "apnUserName", true, false, .plain⟩,
       ⟨"apnPassword", "apnPassword", true, false, .plain⟩,
       ⟨"simPin", "simPin", true, false, .plain⟩,
       ⟨"preferredNetwork", "preferredNetwork", true, false, .plain⟩,
       ⟨"useOnlyPreferredNetwork", "useOnlyPreferredNetwork", true, false, .plain⟩,
       ⟨"customData", "customData", true, false, .plain⟩],
    fromJ :=
      [⟨"apn", "apn", false, false, .plain⟩,
       ⟨"apnAuthentication", "apnAuthentication", false, false, (.enum "v2.APNAuthenticationEnum")⟩,
       ⟨"apnUserName", "apnUserName", true, false, .plain⟩,
       ⟨"apnPassword", "apnPassword", true, false, .plain⟩,
       ⟨"simPin", "simPin", true, false, .plain⟩,
       ⟨"preferredNetwork", "preferredNetwork", true, false, .plain⟩,
       ⟨"useOnlyPreferredNetwork", "useOnlyPreferredNetwork", true, false, .plain⟩,
       ⟨"customData", "customData", true, false, .plain⟩] }

/-- `VPN`, include/ocpp/v2/ocpp_types.hpp l.1966; `to_json`, lib/ocpp/v2/ocpp_types.cpp l.5652-5668; `from_json`, l.5671-5686. -/
def t_v2_VPN : TypeTable :=
  { name := "v2.VPN",
    fields :=
      [⟨"server", false, false, .str (some 2000)⟩,
       ⟨"user", false, false, .str (some 50)⟩,
       ⟨"password", false, false, .str (some 64)⟩,
       ⟨"key", false, false, .str (some 255)⟩,
       ⟨"type", false, false, .enum "v2.VPNEnum"⟩,
       ⟨"group", true, false, .str (some 50)⟩,
       ⟨"customData", true, false, .json⟩],
    toJ :=
      [⟨"server", "server", false, false, .plain⟩,
       ⟨"user", "user", false, false, .plain⟩,
       ⟨"password", "password", false, false, .plain⟩,
       ⟨"key", "key", false, false, .plain⟩,
       ⟨"type", "type", false, false, (.enum "v2.VPNEnum")⟩,
       ⟨"group", "group", true, false, .plain⟩,
       ⟨"customData", "customData", true, false, .plain⟩],
    fromJ :=
      [⟨"server", "server", false, false, .plain⟩,
       ⟨"user", "user", false, false, .plain⟩,
       ⟨"password", "password", false, false, .plain⟩,
       ⟨"key", "key", false, false, .plain⟩,
       ⟨"type", "type", false, false, (.enum "v2.VPNEnum")⟩,
       ⟨"group", "group", true, false, .plain⟩,
       ⟨"customData", "customData", true, false, .plain⟩] }

/-- `NetworkConnectionProfile`, include/ocpp/v2/ocpp_types.hpp l.1985; `to_json`, lib/ocpp/v2/ocpp_types.cpp l.5696-5724; `from_json`, l.5727-5754. -/
def t_v2_NetworkConnectionProfile : TypeTable :=
  { name := "v2.NetworkConnectionProfile",
    fields :=
      [⟨"ocppInterface", false, false, .enum "v2.OCPPInterfaceEnum"⟩,
       ⟨"ocppTransport", false, false, .enum "v2.OCPPTransportEnum"⟩,
       ⟨"messageTimeout", false, false, .int⟩,
       ⟨"ocppCsmsUrl", false, false, .str (some 2000)⟩,
       ⟨"securityProfile", false, false, .int⟩,
       ⟨"apn", true, false, .struct "v2.APN"⟩,
       ⟨"ocppVersion", true, false, .enum "v2.OCPPVersionEnum"⟩,
       ⟨"identity", true, false, .str (some 48)⟩,
       ⟨"basicAuthPassword", true, false, .str (some 64)⟩,
       ⟨"vpn", true, false, .struct "v2.VPN"⟩,
       ⟨"customData", true, false, .json⟩],
    toJ :=
      [⟨"ocppInterface", "ocppInterface", false, false, (.enum "v2.OCPPInterfaceEnum")⟩,
       ⟨"ocppTransport", "ocppTransport", false, false, (.enum "v2.OCPPTransportEnum")⟩,
       ⟨"messageTimeout", "messageTimeout", false, false, .plain⟩,
       ⟨"ocppCsmsUrl", "ocppCsmsUrl", false, false, .plain⟩,
       ⟨"securityProfile", "securityProfile", false, false, .plain⟩,
       ⟨"apn", "apn", true, false, .plain⟩,
       ⟨"ocppVersion", "ocppVersion", true, false, (.enum "v2.OCPPVersionEnum")⟩,
       ⟨"identity", "identity", true, false, .plain⟩,
       ⟨"basicAuthPassword", "basicAuthPassword", true, false, .plain⟩,
       ⟨"vpn", "vpn", true, false, .plain⟩,
       ⟨"customData", "customData", true, false, .plain⟩],
    fromJ :=
      [⟨"ocppInterface", "ocppInterface", false, false, (.enum "v2.OCPPInterfaceEnum")⟩,
       ⟨"ocppTransport", "ocppTransport", false, false, (.enum "v2.OCPPTransportEnum")⟩,
       ⟨"messageTimeout", "messageTimeout", false, false, .plain⟩,
       ⟨"ocppCsmsUrl", "ocppCsmsUrl", false, false, .plain⟩,
       ⟨"securityProfile", "securityProfile", false, false, .plain⟩,
       ⟨"apn", "apn", true, false, .plain⟩,
       ⟨"ocppVersion", "ocppVersion", true, false, (.enum "v2.OCPPVersionEnum")⟩,
       ⟨"identity", "identity", true, false, .plain⟩,
       ⟨"basicAuthPassword", "basicAuthPassword", true, false, .plain⟩,
       ⟨"vpn", "vpn", true, false, .plain⟩,
       ⟨"customData", "customData", true, false, .plain⟩] }

/-- `SetMonitoringData`, include/ocpp/v2/ocpp_types.hpp l.2008; `to_json`, lib/ocpp/v2/ocpp_types.cpp l.5764-5784; `from_json`, l.5787-5808. -/
def t_v2_SetMonitoringData : TypeTable :=
  { name := "v2.SetMonitoringData",
    fields :=
      [⟨"value", false, false, .num⟩,
       ⟨"type", false, false, .enum "v2.MonitorEnum"⟩,
       ⟨"severity", false, false, .int⟩,
       ⟨"component", false, false, .struct "v2.Component"⟩,
       ⟨"variable", false, false, .struct "v2.Variable"⟩,
       ⟨"id", true, false, .int⟩,
       ⟨"periodicEventStream", true, false, .struct "v2.PeriodicEventStreamParams"⟩,
       ⟨"transaction", true, false, .bool⟩,
       ⟨"customData", true, false, .json⟩],
    toJ :=
      [⟨"value", "value", false, false, .plain⟩,
       ⟨"type", "type", false, false, (.enum "v2.MonitorEnum")⟩,
       ⟨"severity", "severity", false, false, .plain⟩,
       ⟨"component", "component", false, false, .plain⟩,
       ⟨"variable", "variable", false, false, .plain⟩,
       ⟨"id", "id", true, false, .plain⟩,
       ⟨"periodicEventStream", "periodicEventStream", true, false, .plain⟩,
       ⟨"transaction", "transaction", true, false, .plain⟩,
       ⟨"customData", "customData", true, false, .plain⟩],
    fromJ :=
      [⟨"value", "value", false, false, .plain⟩,
       ⟨"type", "type", false, false, (.enum "v2.MonitorEnum")⟩,
       ⟨"severity", "severity", false, false, .plain⟩,
       ⟨"component", "component", false, false, .plain⟩,
       ⟨"variable", "variable", false, false, .plain⟩,
       ⟨"id", "id", true, false, .plain⟩,
       ⟨"periodicEventStream", "periodicEventStream", true, false, .plain⟩,
       ⟨"transaction", "transaction", true, false, .plain⟩,
       ⟨"customData", "customData", true, false, .plain⟩] }

/-- `SetMonitoringResult`, include/ocpp/v2/ocpp_types.hpp l.2029; `to_json`, lib/ocpp/v2/ocpp_types.cpp l.5818-5837; `from_json`, l.5840-5858. -/
def t_v2_SetMonitoringResult : TypeTable :=
  { name := "v2.SetMonitoringResult",
    fields :=
      [⟨"status", false, false, .enum "v2.SetMonitoringStatusEnum"⟩,
       ⟨"type", false, false, .enum "v2.MonitorEnum"⟩,
       ⟨"component", false, false, .struct "v2.Component"⟩,
       ⟨"variable", false, false, .struct "v2.Variable"⟩,
       ⟨"severity", false, false, .int⟩,
       ⟨"id", true, false, .int⟩,
       ⟨"statusInfo", true, false, .struct "v2.StatusInfo"⟩,
       ⟨"customData", true, false, .json⟩],
    toJ :=
      [⟨"status", "status", false, false, (.enum "v2.SetMonitoringStatusEnum")⟩,
       ⟨"type", "type", false, false, (.enum "v2.MonitorEnum")⟩,
       ⟨"component", "component", false, false, .plain⟩,
       ⟨"variable", "variable", false, false, .plain⟩,
       ⟨"severity", "severity", false, false, .plain⟩,
       ⟨"id", "id", true, false, .plain⟩,
       ⟨"statusInfo", "statusInfo", true, false, .plain⟩,
       ⟨"customData", "customData", true, false, .plain⟩],
    fromJ :=
      [⟨"status", "status", false, false, (.enum "v2.SetMonitoringStatusEnum")⟩,
       ⟨"type", "type", false, false, (.enum "v2.MonitorEnum")⟩,
       ⟨"component", "component", false, false, .plain⟩,
       ⟨"variable", "variable", false, false, .plain⟩,
       ⟨"severity", "severity", false, false, .plain⟩,
       ⟨"id", "id", true, false, .plain⟩,
       ⟨"statusInfo", "statusInfo", true, false, .plain⟩,
       ⟨"customData", "customData", true, false, .plain⟩] }

/-- `SetVariableData`, include/ocpp/v2/ocpp_types.hpp l.2049; `to_json`, lib/ocpp/v2/ocpp_types.cpp l.5868-5882; `from_json`, l.5885-5898. -/
def t_v2_SetVariableData : TypeTable :=
  { name := "v2.SetVariableData",
    fields :=
      [⟨"attributeValue", false, false, .str (some 2500)⟩,
       ⟨"component", false, false, .struct "v2.Component"⟩,
       ⟨"variable", false, false, .struct "v2.Variable"⟩,
       ⟨"attributeType", true, false, .enum "v2.AttributeEnum"⟩,
       ⟨"customData", true, false, .json⟩],
    toJ :=
      [⟨"attributeValue", "attributeValue", false, false, .plain⟩,
       ⟨"component", "component", false, false, .plain⟩,
       ⟨"variable", "variable", false, false, .plain⟩,
       ⟨"attributeType", "attributeType", true, false, (.enum "v2.AttributeEnum")⟩,
       ⟨"customData", "customData", true, false, .plain⟩],
    fromJ :=
      [⟨"attributeValue", "attributeValue", false, false, .plain⟩,
       ⟨"component", "component", false, false, .plain⟩,
       ⟨"variable", "variable", false, false, .plain⟩,
       ⟨"attributeType", "attributeType", true, false, (.enum "v2.AttributeEnum")⟩,
       ⟨"customData", "customData", true, false, .plain⟩] }

/-- `SetVariableResult`, include/ocpp/v2/ocpp_types.hpp l.2066; `to_json`, lib/ocpp/v2/ocpp_types.cpp l.5908-5925; `from_json`, l.5928-5944. -/
def t_v2_SetVariableResult : TypeTable :=
  { name := "v2.SetVariableResult",
    fields :=
      [⟨"attributeStatus", false, false, .enum "v2.SetVariableStatusEnum"⟩,
       ⟨"component", false, false, .struct "v2.Component"⟩,
       ⟨"variable", false, false, .struct "v2.Variable"⟩,
       ⟨"attributeType", true, false, .enum "v2.AttributeEnum"⟩,
       ⟨"attributeStatusInfo", true, false, .struct "v2.StatusInfo"⟩,
       ⟨"customData", true, false, .json⟩],
    toJ :=
      [⟨"attributeStatus", "attributeStatus", false, false, (.enum "v2.SetVariableStatusEnum")⟩,
       ⟨"component", "component", false, false, .plain⟩,
       ⟨"variable", "variable", false, false, .plain⟩,
       ⟨"attributeType", "attributeType", true, false, (.enum "v2.AttributeEnum")⟩,
       ⟨"attributeStatusInfo", "attributeStatusInfo", true, false, .plain⟩,
       ⟨"customData", "customData", true, false, .plain⟩],
    fromJ :=
      [⟨"attributeStatus", "attributeStatus", false, false, (.enum "v2.SetVariableStatusEnum")⟩,
       ⟨"component", "component", false, false, .plain⟩,
       ⟨"variable", "variable", false, false, .plain⟩,
       ⟨"attributeType", "attributeType", true, false, (.enum "v2.AttributeEnum")⟩,
       ⟨"attributeStatusInfo", "attributeStatusInfo", true, false, .plain⟩,
       ⟨"customData", "customData", true, false, .plain⟩] }

/-- `CostDimension`, include/ocpp/v2/ocpp_types.hpp l.2084; `to_json`, lib/ocpp/v2/ocpp_types.cpp l.5954-5964; `from_json`, l.5967-5976. -/
def t_v2_CostDimension : TypeTable :=
  { name := "v2.CostDimension",
    fields :=
      [⟨"type", false, false, .enum "v2.CostDimensionEnum"⟩,
       ⟨"volume", false, false, .num⟩,
       ⟨"customData", true, false, .json⟩],
    toJ :=
      [⟨"type", "type", false, false, (.enum "v2.CostDimensionEnum")⟩,
       ⟨"volume", "volume", false, false, .plain⟩,
       ⟨"customData", "customData", true, false, .plain⟩],
    fromJ :=
      [⟨"type", "type", false, false, (.enum "v2.CostDimensionEnum")⟩,
       ⟨"volume", "volume", false, false, .plain⟩,
       ⟨"customData", "customData", true, false, .plain⟩] }

/-- `ChargingPeriod`, include/ocpp/v2/ocpp_types.hpp l.2099; `to_json`, lib/ocpp/v2/ocpp_types.cpp l.5986-6004; `from_json`, l.6007-6026. -/
def t_v2_ChargingPeriod : TypeTable :=
  { name := "v2.ChargingPeriod",
    fields :=
      [⟨"startPeriod", false, false, .time⟩,
       ⟨"dimensions", true, true, .struct "v2.CostDimension"⟩,
       ⟨"tariffId", true, false, .str (some 60)⟩,
       ⟨"customData", true, false, .json⟩],
    toJ :=
      [⟨"startPeriod", "startPeriod", false, false, .time⟩,
       ⟨"dimensions", "dimensions", true, true, .plain⟩,
       ⟨"tariffId", "tariffId", true, false, .plain⟩,
       ⟨"customData", "customData", true, false, .plain⟩],
    fromJ :=
      [⟨"startPeriod", "startPeriod", false, false, .time⟩,
       ⟨"dimensions", "dimensions", true, true, .plain⟩,
       ⟨"tariffId", "tariffId", true, false, .plain⟩,
       ⟨"customData", "customData", true, false, .plain⟩] }

/-- `TotalPrice`, include/ocpp/v2/ocpp_types.hpp l.2115; `to_json`, lib/ocpp/v2/ocpp_types.cpp l.6036-6049; `from_json`, l.6052-6065. -/
def t_v2_TotalPrice : TypeTable :=
  { name := "v2.TotalPrice",
    fields :=
      [⟨"exclTax", true, false, .num⟩,
       ⟨"inclTax", true, false, .num⟩,
       ⟨"customData", true, false, .json⟩],
    toJ :=
      [⟨"exclTax", "exclTax", true, false, .plain⟩,
       ⟨"inclTax", "inclTax", true, false, .plain⟩,
       ⟨"customData", "customData", true, false, .plain⟩],
    fromJ :=
      [⟨"exclTax", "exclTax", true, false, .plain⟩,
       ⟨"inclTax", "inclTax", true, false, .plain⟩,
       ⟨"customData", "customData", true, false, .plain⟩] }

/-- `TotalCost`, include/ocpp/v2/ocpp_types.hpp l.2130; `to_json`, lib/ocpp/v2/ocpp_types.cpp l.6075-6104; `from_json`, l.6107-6135. -/
def t_v2_TotalCost : TypeTable :=
  { name := "v2.TotalCost",
    fields :=
      [⟨"currency", false, false, .str (some 3)⟩,
       ⟨"typeOfCost", false, false, .enum "v2.TariffCostEnum"⟩,
       ⟨"total", false, false, .struct "v2.TotalPrice"⟩,
       ⟨"fixed", true, false, .struct "v2.Price"⟩,
       ⟨"energy", true, false, .struct "v2.Price"⟩,
       ⟨"chargingTime", true, false, .struct "v2.Price"⟩,
       ⟨"idleTime", true, false, .struct "v2.Price"⟩,
       ⟨"reservationTime", true, false, .struct "v2.Price"⟩,
       ⟨"reservationFixed", true, false, .struct "v2.Price"⟩,
       ⟨"customData", true, false, .json⟩],
    toJ :=
      [⟨"currency", "currency", false, false, .plain⟩,
       ⟨"typeOfCost", "typeOfCost", false, false, (.enum "v2.TariffCostEnum")⟩,
       ⟨"total", "total", false, false, .plain⟩,
       ⟨"fixed", "fixed", true, false, .plain⟩,
       ⟨"energy", "energy", true, false, .plain⟩,
       ⟨"chargingTime", "chargingTime", true, false, .plain⟩,
       ⟨"idleTime", "idleTime", true, false, .plain⟩,
       ⟨"reservationTime", "reservationTime", true, false, .plain⟩,
       ⟨"reservationFixed", "reservationFixed", true, false, .plain⟩,
       ⟨"customData", "customData", true, false, .plain⟩],
    fromJ :=
      [⟨"currency", "currency", false, false, .plain⟩,
       ⟨"typeOfCost", "typeOfCost", false, false, (.enum "v2.TariffCostEnum")⟩,
       ⟨"total", "total", false, false, .plain⟩,
       ⟨"fixed", "fixed", true, false, .plain⟩,
       ⟨"energy", "energy", true, false, .plain⟩,
       ⟨"chargingTime", "chargingTime", true, false, .plain⟩,
       ⟨"idleTime", "idleTime", true, false, .plain⟩,
       ⟨"reservationTime", "reservationTime", true, false, .plain⟩,
       ⟨"reservationFixed", "reservationFixed", true, false, .plain⟩,
       ⟨"customData", "customData", true, false, .plain⟩] }

/-- `TotalUsage`, include/ocpp/v2/ocpp_types.hpp l.2152; `to_json`, lib/ocpp/v2/ocpp_types.cpp l.6145-6159; `from_json`, l.6162-6175. -/
def t_v2_TotalUsage : TypeTable :=
  { name := "v2.TotalUsage",
    fields :=
      [⟨"energy", false, false, .num⟩,
       ⟨"chargingTime", false, false, .int⟩,
       ⟨"idleTime", false, false, .int⟩,
       ⟨"reservationTime", true, false, .int⟩,
       ⟨"customData", true, false, .json⟩],
    toJ :=
      [⟨"energy", "energy", false, false, .plain⟩,
       ⟨"chargingTime", "chargingTime", false, false, .plain⟩,
       ⟨"idleTime", "idleTime", false, false, .plain⟩,
       ⟨"reservationTime", "reservationTime", true, false, .plain⟩,
       ⟨"customData", "customData", true, false, .plain⟩],
    fromJ :=
      [⟨"energy", "energy", false, false, .plain⟩,
       ⟨"chargingTime", "chargingTime", false, false, .plain⟩,
       ⟨"idleTime", "idleTime", false, false, .plain⟩,
       ⟨"reservationTime", "reservationTime", true, false, .plain⟩,
       ⟨"customData", "customData", true, false, .plain⟩] }

/-- `CostDetails`, include/ocpp/v2/ocpp_types.hpp l.2169; `to_json`, lib/ocpp/v2/ocpp_types.cpp l.6185-6207; `from_json`, l.6210-6233. -/
def t_v2_CostDetails : TypeTable :=
  { name := "v2.CostDetails",
    fields :=
      [⟨"totalCost", false, false, .struct "v2.TotalCost"⟩,
       ⟨"totalUsage", false, false, .struct "v2.TotalUsage"⟩,
       ⟨"chargingPeriods", true, true, .struct "v2.ChargingPeriod"⟩,
       ⟨"failureToCalculate", true, false, .bool⟩,
       ⟨"failureReason", true, false, .str (some 500)⟩,
       ⟨"customData", true, false, .json⟩],
    toJ :=
      [⟨"totalCost", "totalCost", false, false, .plain⟩,
       ⟨"totalUsage", "totalUsage", false, false, .plain⟩,
       ⟨"chargingPeriods", "chargingPeriods", true, true, .plain⟩,
       ⟨"failureToCalculate", "failureToCalculate", true, false, .plain⟩,
       ⟨"failureReason", "failureReason", true, false, .plain⟩,
       ⟨"customData", "customData", true, false, .plain⟩],
    fromJ :=
      [⟨"totalCost", "totalCost", false, false, .plain⟩,
       ⟨"totalUsage", "totalUsage", false, false, .plain⟩,
       ⟨"chargingPeriods", "chargingPeriods", true, true, .plain⟩,
       ⟨"failureToCalculate", "failureToCalculate", true, false, .plain⟩,
       ⟨"failureReason", "failureReason", true, false, .plain⟩,
       ⟨"customData", "customData", true, false, .plain⟩] }

/-- `TransactionLimit`, include/ocpp/v2/ocpp_types.hpp l.2187; `to_json`, lib/ocpp/v2/ocpp_types.cpp l.6243-6262; `from_json`, l.6265-6284. -/
def t_v2_TransactionLimit : TypeTable :=
  { name := "v2.TransactionLimit",
    fields :=
      [⟨"maxCost", true, false, .num⟩,
       ⟨"maxEnergy", true, false, .num⟩,
       ⟨"maxTime", true, false, .int⟩,
       ⟨"maxSoC", true, false, .int⟩,
       ⟨"customData", true, false, .json⟩],
    toJ :=
      [⟨"maxCost", "maxCost", true, false, .plain⟩,
       ⟨"maxEnergy", "maxEnergy", true, false, .plain⟩,
       ⟨"maxTime", "maxTime", true, false, .plain⟩,
       ⟨"maxSoC", "maxSoC", true, false, .plain⟩,
       ⟨"customData", "customData", true, false, .plain⟩],
    fromJ :=
      [⟨"maxCost", "maxCost", true, false, .plain⟩,
       ⟨"maxEnergy", "maxEnergy", true, false, .plain⟩,
       ⟨"maxTime", "maxTime", true, false, .plain⟩,
       ⟨"maxSoC", "maxSoC", true, false, .plain⟩,
       ⟨"customData", "customData", true, false, .plain⟩] }

/-- `Transaction`, include/ocpp/v2/ocpp_types.hpp l.2204; `to_json`, lib/ocpp/v2/ocpp_types.cpp l.6294-6324; `from_json`, l.6327-6356. -/
def t_v2_Transaction : TypeTable :=
  { name := "v2.Transaction",
    fields :=
      [⟨"transactionId", false, false, .str (some 36)⟩,
       ⟨"chargingState", true, false, .enum "v2.ChargingStateEnum"⟩,
       ⟨"timeSpentCharging", true, false, .int⟩,
       ⟨"stoppedReason", true, false, .enum "v2.ReasonEnum"⟩,
       ⟨"remoteStartId", true, false, .int⟩,
       ⟨"operationMode", true, false, .enum "v2.OperationModeEnum"⟩,
       ⟨"tariffId", true, false, .str (some 60)⟩,
       ⟨"transactionLimit", true, false, .struct "v2.TransactionLimit"⟩,
       ⟨"customData", true, false, .json⟩],
    toJ :=
      [⟨"transactionId", "transactionId", false, false, .plain⟩,
       ⟨"chargingState", "chargingState", true, false, (.enum "v2.ChargingStateEnum")⟩,
       ⟨"timeSpentCharging", "timeSpentCharging", true, false, .plain⟩,
       ⟨"stoppedReason", "stoppedReason", true, false, (.enum "v2.ReasonEnum")⟩,
       ⟨"remoteStartId", "remoteStartId", true, false, .plain⟩,
       ⟨"operationMode", "operationMode", true, false, (.enum "v2.OperationModeEnum")⟩,
       ⟨"tariffId", "tariffId", true, false, .plain⟩,
       ⟨"transactionLimit", "transactionLimit", true, false, .plain⟩,
       ⟨"customData", "customData", true, false, .plain⟩],
    fromJ :=
      [⟨"transactionId", "transactionId", false, false, .plain⟩,
       ⟨"chargingState", "chargingState", true, false, (.enum "v2.ChargingStateEnum")⟩,
       ⟨"timeSpentCharging", "timeSpentCharging", true, false, .plain⟩,
       ⟨"stoppedReason", "stoppedReason", true, false, (.enum "v2.ReasonEnum")⟩,
       ⟨"remoteStartId", "remoteStartId", true, false, .plain⟩,
       ⟨"operationMode", "operationMode", true, false, (.enum "v2.OperationModeEnum")⟩,
       ⟨"tariffId", "tariffId", true, false, .plain⟩,
       ⟨"transactionLimit", "transactionLimit", true, false, .plain⟩,
       ⟨"customData", "customData", true, false, .plain⟩] }

/-- `Firmware`, include/ocpp/v2/ocpp_types.hpp l.2225; `to_json`, lib/ocpp/v2/ocpp_types.cpp l.6366-6385; `from_json`, l.6388-6406. -/
def t_v2_Firmware : TypeTable :=
  { name := "v2.Firmware",
    fields :=
      [⟨"location", false, false, .str (some 2000)⟩,
       ⟨"retrieveDateTime", false, false, .time⟩,
       ⟨"installDateTime", true, false, .time⟩,
       ⟨"signingCertificate", true, false, .str (some 5500)⟩,
       ⟨"signature", true, false, .str (some 800)⟩,
       ⟨"customData", true, false, .json⟩],
    toJ :=
      [⟨"location", "location", false, false, .plain⟩,
       ⟨"retrieveDateTime", "retrieveDateTime", false, false, .time⟩,
       ⟨"installDateTime", "installDateTime", true, false, .time⟩,
       ⟨"signingCertificate", "signingCertificate", true, false, .plain⟩,
       ⟨"signature", "signature", true, false, .plain⟩,
       ⟨"customData", "customData", true, false, .plain⟩],
    fromJ :=
      [⟨"location", "location", false, false, .plain⟩,
       ⟨"retrieveDateTime", "retrieveDateTime", false, false, .time⟩,
       ⟨"installDateTime", "installDateTime", true, false, .time⟩,
       ⟨"signingCertificate", "signingCertificate", true, false, .plain⟩,
       ⟨"signature", "signature", true, false, .plain⟩,
       ⟨"customData", "customData", true, false, .plain⟩] }

/-- `AuthorizeRequest`, include/ocpp/v2/messages/Authorize.hpp l.19; `to_json`, lib/ocpp/v2/messages/Authorize.cpp l.20-38; `from_json`, l.40-59. -/
def t_v2_AuthorizeRequest : TypeTable :=
  { name := "v2.AuthorizeRequest",
    fields :=
      [⟨"idToken", false, false, .struct "v2.IdToken"⟩,
       ⟨"certificate", true, false, .str (some 10000)⟩,
       ⟨"iso15118CertificateHashData", true, true, .struct "v2.OCSPRequestData"⟩,
       ⟨"customData", true, false, .json⟩],
    toJ :=
      [⟨"idToken", "idToken", false, false, .plain⟩,
       ⟨"certificate", "certificate", true, false, .plain⟩,
       ⟨"iso15118CertificateHashData", "iso15118CertificateHashData", true, true, .plain⟩,
       ⟨"customData", "customData", true, false, .plain⟩],
    fromJ :=
      [⟨"idToken", "idToken", false, false, .plain⟩,
       ⟨"certificate", "certificate", true, false, .plain⟩,
       ⟨"iso15118CertificateHashData", "iso15118CertificateHashData", true, true, .plain⟩,
       ⟨"customData", "customData", true, false, .plain⟩] }

/-- `AuthorizeResponse`, include/ocpp/v2/messages/Authorize.hpp l.41; `to_json`, lib/ocpp/v2/messages/Authorize.cpp l.72-93; `from_json`, l.95-118. -/
def t_v2_AuthorizeResponse : TypeTable :=
  { name := "v2.AuthorizeResponse",
    fields :=
      [⟨"idTokenInfo", false, false, .struct "v2.IdTokenInfo"⟩,
       ⟨"certificateStatus", true, false, .enum "v2.AuthorizeCertificateStatusEnum"⟩,
       ⟨"allowedEnergyTransfer", true, true, .enum "v2.EnergyTransferModeEnum"⟩,
       ⟨"tariff", true, false, .struct "v2.Tariff"⟩,
       ⟨"customData", true, false, .json⟩],
    toJ :=
      [⟨"idTokenInfo", "idTokenInfo", false, false, .plain⟩,
       ⟨"certificateStatus", "certificateStatus", true, false, (.enum "v2.AuthorizeCertificateStatusEnum")⟩,
       ⟨"allowedEnergyTransfer", "allowedEnergyTransfer", true, true, (.enum "v2.EnergyTransferModeEnum")⟩,
       ⟨"tariff", "tariff", true, false, .plain⟩,
       ⟨"customData", "customData", true, false, .plain⟩],
    fromJ :=
      [⟨"idTokenInfo", "idTokenInfo", false, false, .plain⟩,
       ⟨"certificateStatus", "certificateStatus", true, false, (.enum "v2.AuthorizeCertificateStatusEnum")⟩,
       ⟨"allowedEnergyTransfer", "allowedEnergyTransfer", true, true, (.enum "v2.EnergyTransferModeEnum")⟩,
       ⟨"tariff", "tariff", true, false, .plain⟩,
       ⟨"customData", "customData", true, false, .plain⟩] }

/-- `BootNotificationRequest`, include/ocpp/v2/messages/BootNotification.hpp l.19; `to_json`, lib/ocpp/v2/messages/BootNotification.cpp l.20-30; `from_json`, l.32-41. -/
def t_v2_BootNotificationRequest : TypeTable :=
  { name := "v2.BootNotificationRequest",
    fields :=
      [⟨"chargingStation", false, false, .struct "v2.ChargingStation"⟩,
       ⟨"reason", false, false, .enum "v2.BootReasonEnum"⟩,
       ⟨"customData", true, false, .json⟩],
    toJ :=
      [⟨"chargingStation", "chargingStation", false, false, .plain⟩,
       ⟨"reason", "reason", false, false, (.enum "v2.BootReasonEnum")⟩,
       ⟨"customData", "customData", true, false, .plain⟩],
    fromJ :=
      [⟨"chargingStation", "chargingStation", false, false, .plain⟩,
       ⟨"reason", "reason", false, false, (.enum "v2.BootReasonEnum")⟩,
       ⟨"customData", "customData", true, false, .plain⟩] }

/-- `BootNotificationResponse`, include/ocpp/v2/messages/BootNotification.hpp l.40; `to_json`, lib/ocpp/v2/messages/BootNotification.cpp l.54-68; `from_json`, l.70-83. -/
def t_v2_BootNotificationResponse : TypeTable :=
  { name := "v2.BootNotificationResponse",
    fields :=
      [⟨"currentTime", false, false, .time⟩,
       ⟨"interval", false, false, .int⟩,
       ⟨"status", false, false, .enum "v2.RegistrationStatusEnum"⟩,
       ⟨"statusInfo", true, false, .struct "v2.StatusInfo"⟩,
       ⟨"customData", true, false, .json⟩],
    toJ :=
      [⟨"currentTime", "currentTime", false, false, .time⟩,
       ⟨"interval", "interval", false, false, .plain⟩,
       ⟨"status", "status", false, false, (.enum "v2.RegistrationStatusEnum")⟩,
       ⟨"statusInfo", "statusInfo", true, false, .plain⟩,
       ⟨"customData", "customData", true, false, .plain⟩],
    fromJ :=
      [⟨"currentTime", "currentTime", false, false, .time⟩,
       ⟨"interval", "interval", false, false, .plain⟩,
       ⟨"status", "status", false, false, (.enum "v2.RegistrationStatusEnum")⟩,
       ⟨"statusInfo", "statusInfo", true, false, .plain⟩,
       ⟨"customData", "customData", true, false, .plain⟩] }

/-- `CancelReservationRequest`, include/ocpp/v2/messages/CancelReservation.hpp l.19; `to_json`, lib/ocpp/v2/messages/CancelReservation.cpp l.20-29; `from_json`, l.31-39. -/
def t_v2_CancelReservationRequest : TypeTable :=
  { name := "v2.CancelReservationRequest",
    fields :=
      [⟨"reservationId", false, false, .int⟩,
       ⟨"customData", true, false, .json⟩],
    toJ :=
      [⟨"reservationId", "reservationId", false, false, .plain⟩,
       ⟨"customData", "customData", true, false, .plain⟩],
    fromJ :=
      [⟨"reservationId", "reservationId", false, false, .plain⟩,
       ⟨"customData", "customData", true, false, .plain⟩] }

/-- `CancelReservationResponse`, include/ocpp/v2/messages/CancelReservation.hpp l.39; `to_json`, lib/ocpp/v2/messages/CancelReservation.cpp l.52-64; `from_json`, l.66-77. -/
def t_v2_CancelReservationResponse : TypeTable :=
  { name := "v2.CancelReservationResponse",
    fields :=
      [⟨"status", false, false, .enum "v2.CancelReservationStatusEnum"⟩,
       ⟨"statusInfo", true, false, .struct "v2.StatusInfo"⟩,
       ⟨"customData", true, false, .json⟩],
    toJ :=
      [⟨"status", "status", false, false, (.enum "v2.CancelReservationStatusEnum")⟩,
       ⟨"statusInfo", "statusInfo", true, false, .plain⟩,
       ⟨"customData", "customData", true, false, .plain⟩],
    fromJ :=
      [⟨"status", "status", false, false, (.enum "v2.CancelReservationStatusEnum")⟩,
       ⟨"statusInfo", "statusInfo", true, false, .plain⟩,
       ⟨"customData", "customData", true, false, .plain⟩] }

/-- `CertificateSignedRequest`, include/ocpp/v2/messages/CertificateSigned.hpp l.19; `to_json`, lib/ocpp/v2/messages/CertificateSigned.cpp l.20-35; `from_json`, l.37-51. -/
def t_v2_CertificateSignedRequest : TypeTable :=
  { name := "v2.CertificateSignedRequest",
    fields :=
      [⟨"certificateChain", false, false, .str (some 10000)⟩,
       ⟨"certificateType", true, false, .enum "v2.CertificateSigningUseEnum"⟩,
       ⟨"requestId", true, false, .int⟩,
       ⟨"customData", true, false, .json⟩],
    toJ :=
      [⟨"certificateChain", "certificateChain", false, false, .plain⟩,
       ⟨"certificateType", "certificateType", true, false, (.enum "v2.CertificateSigningUseEnum")⟩,
       ⟨"requestId", "requestId", true, false, .plain⟩,
       ⟨"customData", "customData", true, false, .plain⟩],
    fromJ :=
      [⟨"certificateChain", "certificateChain", false, false, .plain⟩,
       ⟨"certificateType", "certificateType", true, false, (.enum "v2.CertificateSigningUseEnum")⟩,
       ⟨"requestId", "requestId", true, false, .plain⟩,
       ⟨"customData", "customData", true, false, .plain⟩] }

/-- `CertificateSignedResponse`, include/ocpp/v2/messages/CertificateSigned.hpp l.41; `to_json`, lib/ocpp/v2/messages/CertificateSigned.cpp l.64-76; `from_json`, l.78-89. -/
def t_v2_CertificateSignedResponse : TypeTable :=
  { name := "v2.CertificateSignedResponse",
    fields :=
      [⟨"status", false, false, .enum "v2.CertificateSignedStatusEnum"⟩,
       ⟨"statusInfo", true, false, .struct "v2.StatusInfo"⟩,
       ⟨"customData", true, false, .json⟩],
    toJ :=
      [⟨"status", "status", false, false, (.enum "v2.CertificateSignedStatusEnum")⟩,
       ⟨"statusInfo", "statusInfo", true, false, .plain⟩,
       ⟨"customData", "customData", true, false, .plain⟩],
    fromJ :=
      [⟨"status", "status", false, false, (.enum "v2.CertificateSignedStatusEnum")⟩,
       ⟨"statusInfo", "statusInfo", true, false, .plain⟩,
       ⟨"customData", "customData", true, false, .plain⟩] }

/-- `ChangeAvailabilityRequest`, include/ocpp/v2/messages/ChangeAvailability.hpp l.19; `to_json`, lib/ocpp/v2/messages/ChangeAvailability.cpp l.20-32; `from_json`, l.34-45. -/
def t_v2_ChangeAvailabilityRequest : TypeTable :=
  { name := "v2.ChangeAvailabilityRequest",
    fields :=
      [⟨"operationalStatus", false, false, .enum "v2.OperationalStatusEnum"⟩,
       ⟨"evse", true, false, .struct "v2.EVSE"⟩,
       ⟨"customData", true, false, .json⟩],
    toJ :=
      [⟨"operationalStatus", "operationalStatus", false, false, (.enum "v2.OperationalStatusEnum")⟩,
       ⟨"evse", "evse", true, false, .plain⟩,
       ⟨"customData", "customData", true, false, .plain⟩],
    fromJ :=
      [⟨"operationalStatus", "operationalStatus", false, false, (.enum "v2.OperationalStatusEnum")⟩,
       ⟨"evse", "evse", true, false, .plain⟩,
       ⟨"customData", "customData", true, false, .plain⟩] }

/-- `ChangeAvailabilityResponse`, include/ocpp/v2/messages/ChangeAvailability.hpp l.40; `to_json`, lib/ocpp/v2/messages/ChangeAvailability.cpp l.58-70; `from_json`, l.72-83. -/
def t_v2_ChangeAvailabilityResponse : TypeTable :=
  { name := "v2.ChangeAvailabilityResponse",
    fields :=
      [⟨"status", false, false, .enum "v2.ChangeAvailabilityStatusEnum"⟩,
       ⟨"statusInfo", true, false, .struct "v2.StatusInfo"⟩,
       ⟨"customData", true, false, .json⟩],
    toJ :=
      [⟨"status", "status", false, false, (.enum "v2.ChangeAvailabilityStatusEnum")⟩,
       ⟨"statusInfo", "statusInfo", true, false, .plain⟩,
       ⟨"customData", "customData", true, false, .plain⟩],
    fromJ :=
      [⟨"status", "status", false, false, (.enum "v2.ChangeAvailabilityStatusEnum")⟩,
       ⟨"statusInfo", "statusInfo", true, false, .plain⟩,
       ⟨"customData", "customData", true, false, .plain⟩] }

/-- `ClearCacheRequest`, include/ocpp/v2/messages/ClearCache.hpp l.19; `to_json`, lib/ocpp/v2/messages/ClearCache.cpp l.20-27; `from_json`, l.29-36. -/
def t_v2_ClearCacheRequest : TypeTable :=
  { name := "v2.ClearCacheRequest",
    fields :=
      [⟨"customData", true, false, .json⟩],
    toJ :=
      [⟨"customData", "customData", true, false, .plain⟩],
    fromJ :=
      [⟨"customData", "customData", true, false, .plain⟩] }

/-- `ClearCacheResponse`, include/ocpp/v2/messages/ClearCache.hpp l.38; `to_json`, lib/ocpp/v2/messages/ClearCache.cpp l.49-61; `from_json`, l.63-74. -/
def t_v2_ClearCacheResponse : TypeTable :=
  { name := "v2.ClearCacheResponse",
    fields :=
      [⟨"status", false, false, .enum "v2.ClearCacheStatusEnum"⟩,
       ⟨"statusInfo", true, false, .struct "v2.StatusInfo"⟩,
       ⟨"customData", true, false, .json⟩],
    toJ :=
      [⟨"status", "status", false, false, (.enum "v2.ClearCacheStatusEnum")⟩,
       ⟨"statusInfo", "statusInfo", true, false, .plain⟩,
       ⟨"customData", "customData", true, false, .plain⟩],
    fromJ :=
      [⟨"status", "status", false, false, (.enum "v2.ClearCacheStatusEnum")⟩,
       ⟨"statusInfo", "statusInfo", true, false, .plain⟩,
       ⟨"customData", "customData", true, false, .plain⟩] }

/-- `ClearChargingProfileRequest`, include/ocpp/v2/messages/ClearChargingProfile.hpp l.19; `to_json`, lib/ocpp/v2/messages/ClearChargingProfile.cpp l.20-33; `from_json`, l.35-48. -/
def t_v2_ClearChargingProfileRequest : TypeTable :=
  { name := "v2.ClearChargingProfileRequest",
    fields :=
      [⟨"chargingProfileId", true, false, .int⟩,
       ⟨"chargingProfileCriteria", true, false, .struct "v2.ClearChargingProfile"⟩,
       ⟨"customData", true, false, .json⟩],
    toJ :=
      [⟨"chargingProfileId", "chargingProfileId", true, false, .plain⟩,
       ⟨"chargingProfileCriteria", "chargingProfileCriteria", true, false, .plain⟩,
       ⟨"customData", "customData", true, false, .plain⟩],
    fromJ :=
      [⟨"chargingProfileId", "chargingProfileId", true, false, .plain⟩,
       ⟨"chargingProfileCriteria", "chargingProfileCriteria", true, false, .plain⟩,
       ⟨"customData", "customData", true, false, .plain⟩] }

/-- `ClearChargingProfileResponse`, include/ocpp/v2/messages/ClearChargingProfile.hpp l.41; `to_json`, lib/ocpp/v2/messages/ClearChargingProfile.cpp l.62-74; `from_json`, l.76-87. -/
def t_v2_ClearChargingProfileResponse : TypeTable :=
  { name := "v2.ClearChargingProfileResponse",
    fields :=
      [⟨"status", false, false, .enum "v2.ClearChargingProfileStatusEnum"⟩,
       ⟨"statusInfo", true, false, .struct "v2.StatusInfo"⟩,
       ⟨"customData", true, false, .json⟩],
    toJ :=
      [⟨"status", "status", false, false, (.enum "v2.ClearChargingProfileStatusEnum")⟩,
       ⟨"statusInfo", "statusInfo", true, false, .plain⟩,
       ⟨"customData", "customData", true, false, .plain⟩],
    fromJ :=
      [⟨"status", "status", false, false, (.enum "v2.ClearChargingProfileStatusEnum")⟩,
       ⟨"statusInfo", "statusInfo", true, false, .plain⟩,
       ⟨"customData", "customData", true, false, .plain⟩] }

/-- `ClearDisplayMessageRequest`, include/ocpp/v2/messages/ClearDisplayMessage.hpp l.19; `to_json`, lib/ocpp/v2/messages/ClearDisplayMessage.cpp l.20-29; `from_json`, l.31-39. -/
def t_v2_ClearDisplayMessageRequest : TypeTable :=
  { name := "v2.ClearDisplayMessageRequest",
    fields :=
      [⟨"id", false, false, .int⟩,
       ⟨"customData", true, false, .json⟩],
    toJ :=
      [⟨"id", "id", false, false, .plain⟩,
       ⟨"customData", "customData", true, false, .plain⟩],
    fromJ :=
      [⟨"id", "id", false, false, .plain⟩,
       ⟨"customData", "customData", true, false, .plain⟩] }

/-- `ClearDisplayMessageResponse`, include/ocpp/v2/messages/ClearDisplayMessage.hpp l.40; `to_json`, lib/ocpp/v2/messages/ClearDisplayMessage.cpp l.53-65; `from_json`, l.67-78. -/
def t_v2_ClearDisplayMessageResponse : TypeTable :=
  { name := "v2.ClearDisplayMessageResponse",
    fields :=
      [⟨"status", false, false, .enum "v2.ClearMessageStatusEnum"⟩,
       ⟨"statusInfo", true, false, .struct "v2.StatusInfo"⟩,
       ⟨"customData", true, false, .json⟩],
    toJ :=
      [⟨"status", "status", false, false, (.enum "v2.ClearMessageStatusEnum")⟩,
       ⟨"statusInfo", "statusInfo", true, false, .plain⟩,
       ⟨"customData", "customData", true, false, .plain⟩],
    fromJ :=
      [⟨"status", "status", false, false, (.enum "v2.ClearMessageStatusEnum")⟩,
       ⟨"statusInfo", "statusInfo", true, false, .plain⟩,
       ⟨"customData", "customData", true, false, .plain⟩] }

/-- `ClearVariableMonitoringRequest`, include/ocpp/v2/messages/ClearVariableMonitoring.hpp l.19; `to_json`, lib/ocpp/v2/messages/ClearVariableMonitoring.cpp l.20-29; `from_json`, l.31-41. -/
def t_v2_ClearVariableMonitoringRequest : TypeTable :=
  { name := "v2.ClearVariableMonitoringRequest",
    fields :=
      [⟨"id", false, true, .int⟩,
       ⟨"customData", true, false, .json⟩],
    toJ :=
      [⟨"id", "id", false, false, .plain⟩,
       ⟨"customData", "customData", true, false, .plain⟩],
    fromJ :=
      [⟨"id", "id", false, true, .plain⟩,
       ⟨"customData", "customData", true, false, .plain⟩] }

/-- `ClearVariableMonitoringResponse`, include/ocpp/v2/messages/ClearVariableMonitoring.hpp l.40; `to_json`, lib/ocpp/v2/messages/ClearVariableMonitoring.cpp l.55-64; `from_json`, l.66-76. -/
def t_v2_ClearVariableMonitoringResponse : TypeTable :=
  { name := "v2.ClearVariableMonitoringResponse",
    fields :=
      [⟨"clearMonitoringResult", false, true, .struct "v2.ClearMonitoringResult"⟩,
       ⟨"customData", true, false, .json⟩],
    toJ :=
      [⟨"clearMonitoringResult", "clearMonitoringResult", false, false, .plain⟩,
       ⟨"customData", "customData", true, false, .plain⟩],
    fromJ :=
      [⟨"clearMonitoringResult", "clearMonitoringResult", false, true, .plain⟩,
       ⟨"customData", "customData", true, false, .plain⟩] }

/-- `ClearedChargingLimitRequest`, include/ocpp/v2/messages/ClearedChargingLimit.hpp l.18; `to_json`, lib/ocpp/v2/messages/ClearedChargingLimit.cpp l.20-32; `from_json`, l.34-45. -/
def t_v2_ClearedChargingLimitRequest : TypeTable :=
  { name := "v2.ClearedChargingLimitRequest",
    fields :=
      [⟨"chargingLimitSource", false, false, .str (some 20)⟩,
       ⟨"evseId", true, false, .int⟩,
       ⟨"customData", true, false, .json⟩],
    toJ :=
      [⟨"chargingLimitSource", "chargingLimitSource", false, false, .plain⟩,
       ⟨"evseId", "evseId", true, false, .plain⟩,
       ⟨"customData", "customData", true, false, .plain⟩],
    fromJ :=
      [⟨"chargingLimitSource", "chargingLimitSource", false, false, .plain⟩,
       ⟨"evseId", "evseId", true, false, .plain⟩,
       ⟨"customData", "customData", true, false, .plain⟩] }

/-- `ClearedChargingLimitResponse`, include/ocpp/v2/messages/ClearedChargingLimit.hpp l.40; `to_json`, lib/ocpp/v2/messages/ClearedChargingLimit.cpp l.59-66; `from_json`, l.68-75. -/
def t_v2_ClearedChargingLimitResponse : TypeTable :=
  { name := "v2.ClearedChargingLimitResponse",
    fields :=
      [⟨"customData", true, false, .json⟩],
    toJ :=
      [⟨"customData", "customData", true, false, .plain⟩],
    fromJ :=
      [⟨"customData", "customData", true, false, .plain⟩] }

/-- `CostUpdatedRequest`, include/ocpp/v2/messages/CostUpdated.hpp l.18; `to_json`, lib/ocpp/v2/messages/CostUpdated.cpp l.20-30; `from_json`, l.32-41. -/
def t_v2_CostUpdatedRequest : TypeTable :=
  { name := "v2.CostUpdatedRequest",
    fields :=
      [⟨"totalCost", false, false, .num⟩,
       ⟨"transactionId", false, false, .str (some 36)⟩,
       ⟨"customData", true, false, .json⟩],
    toJ :=
      [⟨"totalCost", "totalCost", false, false, .plain⟩,
       ⟨"transactionId", "transactionId", false, false, .plain⟩,
       ⟨"customData", "customData", true, false, .plain⟩],
    fromJ :=
      [⟨"totalCost", "totalCost", false, false, .plain⟩,
       ⟨"transactionId", "transactionId", false, false, .plain⟩,
       ⟨"customData", "customData", true, false, .plain⟩] }

/-- `CostUpdatedResponse`, include/ocpp/v2/messages/CostUpdated.hpp l.39; `to_json`, lib/ocpp/v2/messages/CostUpdated.cpp l.54-61; `from_json`, l.63-70. -/
def t_v2_CostUpdatedResponse : TypeTable :=
  { name := "v2.CostUpdatedResponse",
    fields :=
      [⟨"customData", true, false, .json⟩],
    toJ :=
      [⟨"customData", "customData", true, false, .plain⟩],
    fromJ :=
      [⟨"customData", "customData", true, false, .plain⟩] }

/-- `CustomerInformationRequest`, include/ocpp/v2/messages/CustomerInformation.hpp l.19; `to_json`, lib/ocpp/v2/messages/CustomerInformation.cpp l.20-40; `from_json`, l.42-61. -/
def t_v2_CustomerInformationRequest : TypeTable :=
  { name := "v2.CustomerInformationRequest",
    fields :=
      [⟨"requestId", false, false, .int⟩,
       ⟨"report", false, false, .bool⟩,
       ⟨"clear", false, false, .bool⟩,
       ⟨"customerCertificate", true, false, .struct "v2.CertificateHashDataType"⟩,
       ⟨"idToken", true, false, .struct "v2.IdToken"⟩,
       ⟨"customerIdentifier", true, false, .str (some 64)⟩,
       ⟨"customData", true, false, .json⟩],
    toJ :=
      [⟨"requestId", "requestId", false, false, .plain⟩,
       ⟨"report", "report", false, false, .plain⟩,
       ⟨"clear", "clear", false, false, .plain⟩,
       ⟨"customerCertificate", "customerCertificate", true, false, .plain⟩,
       ⟨"idToken", "idToken", true, false, .plain⟩,
       ⟨"customerIdentifier", "customerIdentifier", true, false, .plain⟩,
       ⟨"customData", "customData", true, false, .plain⟩],
    fromJ :=
      [⟨"requestId", "requestId", false, false, .plain⟩,
       ⟨"report", "report", false, false, .plain⟩,
       ⟨"clear", "clear", false, false, .plain⟩,
       ⟨"customerCertificate", "customerCertificate", true, false, .plain⟩,
       ⟨"idToken", "idToken", true, false, .plain⟩,
       ⟨"customerIdentifier", "customerIdentifier", true, false, .plain⟩,
       ⟨"customData", "customData", true, false, .plain⟩] }

/-- `CustomerInformationResponse`, include/ocpp/v2/messages/CustomerInformation.hpp l.45; `to_json`, lib/ocpp/v2/messages/CustomerInformation.cpp l.75-87; `from_json`, l.89-100. -/
def t_v2_CustomerInformationResponse : TypeTable :=
  { name := "v2.CustomerInformationResponse",
    fields :=
      [⟨"status", false, false, .enum "v2.CustomerInformationStatusEnum"⟩,
       ⟨"statusInfo", true, false, .struct "v2.StatusInfo"⟩,
       ⟨"customData", true, false, .json⟩],
    toJ :=
      [⟨"status", "status", false, false, (.enum "v2.CustomerInformationStatusEnum")⟩,
       ⟨"statusInfo", "statusInfo", true, false, .plain⟩,
       ⟨"customData", "customData", true, false, .plain⟩],
    fromJ :=
      [⟨"status", "status", false, false, (.enum "v2.CustomerInformationStatusEnum")⟩,
       ⟨"statusInfo", "statusInfo", true, false, .plain⟩,
       ⟨"customData", "customData", true, false, .plain⟩] }

/-- `DataTransferRequest`, include/ocpp/v2/messages/DataTransfer.hpp l.19; `to_json`, lib/ocpp/v2/messages/DataTransfer.cpp l.20-35; `from_json`, l.37-51. -/
def t_v2_DataTransferRequest : TypeTable :=
  { name := "v2.DataTransferRequest",
    fields :=
      [⟨"vendorId", false, false, .str (some 255)⟩,
       ⟨"messageId", true, false, .str (some 50)⟩,
       ⟨"data", true, false, .json⟩,
       ⟨"customData", true, false, .json⟩],
    toJ :=
      [⟨"vendorId", "vendorId", false, false, .plain⟩,
       ⟨"messageId", "messageId", true, false, .plain⟩,
       ⟨"data", "data", true, false, .plain⟩,
       ⟨"customData", "customData", true, false, .plain⟩],
    fromJ :=
      [⟨"vendorId", "vendorId", false, false, .plain⟩,
       ⟨"messageId", "messageId", true, false, .plain⟩,
       ⟨"data", "data", true, false, .plain⟩,
       ⟨"customData", "customData", true, false, .plain⟩] }

/-- `DataTransferResponse`, include/ocpp/v2/messages/DataTransfer.hpp l.41; `to_json`, lib/ocpp/v2/messages/DataTransfer.cpp l.64-79; `from_json`, l.81-95. -/
def t_v2_DataTransferResponse : TypeTable :=
  { name := "v2.DataTransferResponse",
    fields :=
      [⟨"status", false, false, .enum "v2.DataTransferStatusEnum"⟩,
       ⟨"statusInfo", true, false, .struct "v2.StatusInfo"⟩,
       ⟨"data", true, false, .json⟩,
       ⟨"customData", true, false, .json⟩],
    toJ :=
      [⟨"status", "status", false, false, (.enum "v2.DataTransferStatusEnum")⟩,
       ⟨"statusInfo", "statusInfo", true, false, .plain⟩,
       ⟨"data", "data", true, false, .plain⟩,
       ⟨"customData", "customData", true, false, .plain⟩],
    fromJ :=
      [⟨"status", "status", false, false, (.enum "v2.DataTransferStatusEnum")⟩,
       ⟨"statusInfo", "statusInfo", true, false, .plain⟩,
       ⟨"data", "data", true, false, .plain⟩,
       ⟨"customData", "customData", true, false, .plain⟩] }

/-- `DeleteCertificateRequest`, include/ocpp/v2/messages/DeleteCertificate.hpp l.19; `to_json`, lib/ocpp/v2/messages/DeleteCertificate.cpp l.20-29; `from_json`, l.31-39. -/
def t_v2_DeleteCertificateRequest : TypeTable :=
  { name := "v2.DeleteCertificateRequest",
    fields :=
      [⟨"certificateHashData", false, false, .struct "v2.CertificateHashDataType"⟩,
       ⟨"customData", true, false, .json⟩],
    toJ :=
      [⟨"certificateHashData", "certificateHashData", false, false, .plain⟩,
       ⟨"customData", "customData", true, false, .plain⟩],
    fromJ :=
      [⟨"certificateHashData", "certificateHashData", false, false, .plain⟩,
       ⟨"customData", "customData", true, false, .plain⟩] }

/-- `DeleteCertificateResponse`, include/ocpp/v2/messages/DeleteCertificate.hpp l.39; `to_json`, lib/ocpp/v2/messages/DeleteCertificate.cpp l.52-64; `from_json`, l.66-77. -/
def t_v2_DeleteCertificateResponse : TypeTable :=
  { name := "v2.DeleteCertificateResponse",
    fields :=
      [⟨"status", false, false, .enum "v2.DeleteCertificateStatusEnum"⟩,
       ⟨"statusInfo", true, false, .struct "v2.StatusInfo"⟩,
       ⟨"customData", true, false, .json⟩],
    toJ :=
      [⟨"status", "status", false, false, (.enum "v2.DeleteCertificateStatusEnum")⟩,
       ⟨"statusInfo", "statusInfo", true, false, .plain⟩,
       ⟨"customData", "customData", true, false, .plain⟩],
    fromJ :=
      [⟨"status", "status", false, false, (.enum "v2.DeleteCertificateStatusEnum")⟩,
       ⟨"statusInfo", "statusInfo", true, false, .plain⟩,
       ⟨"customData", "customData", true, false, .plain⟩] }

/-- `FirmwareStatusNotificationRequest`, include/ocpp/v2/messages/FirmwareStatusNotification.hpp l.19; `to_json`, lib/ocpp/v2/messages/FirmwareStatusNotification.cpp l.20-35; `from_json`, l.37-51. -/
def t_v2_FirmwareStatusNotificationRequest : TypeTable :=
  { name := "v2.FirmwareStatusNotificationRequest",
    fields :=
      [⟨"status", false, false, .enum "v2.FirmwareStatusEnum"⟩,
       ⟨"requestId", true, false, .int⟩,
       ⟨"statusInfo", true, false, .struct "v2.StatusInfo"⟩,
       ⟨"customData", true, false, .json⟩],
    toJ :=
      [⟨"status", "status", false, false, (.enum "v2.FirmwareStatusEnum")⟩,
       ⟨"requestId", "requestId", true, false, .plain⟩,
       ⟨"statusInfo", "statusInfo", true, false, .plain⟩,
       ⟨"customData", "customData", true, false, .plain⟩],
    fromJ :=
      [⟨"status", "status", false, false, (.enum "v2.FirmwareStatusEnum")⟩,
       ⟨"requestId", "requestId", true, false, .plain⟩,
       ⟨"statusInfo", "statusInfo", true, false, .plain⟩,
       ⟨"customData", "customData", true, false, .plain⟩] }

/-- `FirmwareStatusNotificationResponse`, include/ocpp/v2/messages/FirmwareStatusNotification.hpp l.42; `to_json`, lib/ocpp/v2/messages/FirmwareStatusNotification.cpp l.65-72; `from_json`, l.74-81. -/
def t_v2_FirmwareStatusNotificationResponse : TypeTable :=
  { name := "v2.FirmwareStatusNotificationResponse",
    fields :=
      [⟨"customData", true, false, .json⟩],
    toJ :=
      [⟨"customData", "customData", true, false, .plain⟩],
    fromJ :=
      [⟨"customData", "customData", true, false, .plain⟩] }

/-- `Get15118EVCertificateRequest`, include/ocpp/v2/messages/Get15118EVCertificate.hpp l.20; `to_json`, lib/ocpp/v2/messages/Get15118EVCertificate.cpp l.20-40; `from_json`, l.42-63. -/
def t_v2_Get15118EVCertificateRequest : TypeTable :=
  { name := "v2.Get15118EVCertificateRequest",
    fields :=
      [⟨"iso15118SchemaVersion", false, false, .str (some 50)⟩,
       ⟨"action", false, false, .enum "v2.CertificateActionEnum"⟩,
       ⟨"exiRequest", false, false, .str (some 11000)⟩,
       ⟨"maximumContractCertificateChains", true, false, .int⟩,
       ⟨"prioritizedEMAIDs", true, true, .str (some 255)⟩,
       ⟨"customData", true, false, .json⟩],
    toJ :=
      [⟨"iso15118SchemaVersion", "iso15118SchemaVersion", false, false, .plain⟩,
       ⟨"action", "action", false, false, (.enum "v2.CertificateActionEnum")⟩,
       ⟨"exiRequest", "exiRequest", false, false, .plain⟩,
       ⟨"maximumContractCertificateChains", "maximumContractCertificateChains", true, false, .plain⟩,
       ⟨"prioritizedEMAIDs", "prioritizedEMAIDs", true, true, .plain⟩,
       ⟨"customData", "customData", true, false, .plain⟩],
    fromJ :=
      [⟨"iso15118SchemaVersion", "iso15118SchemaVersion", false, false, .plain⟩,
       ⟨"action", "action", false, false, (.enum "v2.CertificateActionEnum")⟩,
       ⟨"exiRequest", "exiRequest", false, false, .plain⟩,
       ⟨"maximumContractCertificateChains", "maximumContractCertificateChains", true, false, .plain⟩,
       ⟨"prioritizedEMAIDs", "prioritizedEMAIDs", true, true, .plain⟩,
       ⟨"customData", "customData", true, false, .plain⟩] }

/-- `Get15118EVCertificateResponse`, include/ocpp/v2/messages/Get15118EVCertificate.hpp l.45; `to_json`, lib/ocpp/v2/messages/Get15118EVCertificate.cpp l.77-93; `from_json`, l.95-110. -/
def t_v2_Get15118EVCertificateResponse : TypeTable :=
  { name := "v2.Get15118EVCertificateResponse",
    fields :=
      [⟨"status", false, false, .enum "v2.Iso15118EVCertificateStatusEnum"⟩,
       ⟨"exiResponse", false, false, .str (some 17000)⟩,
       ⟨"statusInfo", true, false, .struct "v2.StatusInfo"⟩,
       ⟨"remainingContracts", true, false, .int⟩,
       ⟨"customData", true, false, .json⟩],
    toJ :=
      [⟨"status", "status", false, false, (.enum "v2.Iso15118EVCertificateStatusEnum")⟩,
       ⟨"exiResponse", "exiResponse", false, false, .plain⟩,
       ⟨"statusInfo", "statusInfo", true, false, .plain⟩,
       ⟨"remainingContracts", "remainingContracts", true, false, .plain⟩,
       ⟨"customData", "customData", true, false, .plain⟩],
    fromJ :=
      [⟨"status", "status", false, false, (.enum "v2.Iso15118EVCertificateStatusEnum")⟩,
       ⟨"exiResponse", "exiResponse", false, false, .plain⟩,
       ⟨"statusInfo", "statusInfo", true, false, .plain⟩,
       ⟨"remainingContracts", "remainingContracts", true, false, .plain⟩,
       ⟨"customData", "customData", true, false, .plain⟩] }

/-- `GetBaseReportRequest`, include/ocpp/v2/messages/GetBaseReport.hpp l.19; `to_json`, lib/ocpp/v2/messages/GetBaseReport.cpp l.20-30; `from_json`, l.32-41. -/
def t_v2_GetBaseReportRequest : TypeTable :=
  { name := "v2.GetBaseReportRequest",
    fields :=
      [⟨"requestId", false, false, .int⟩,
       ⟨"reportBase", false, false, .enum "v2.ReportBaseEnum"⟩,
       ⟨"customData", true, false, .json⟩],
    toJ :=
      [⟨"requestId", "requestId", false, false, .plain⟩,
       ⟨"reportBase", "reportBase", false, false, (.enum "v2.ReportBaseEnum")⟩,
       ⟨"customData", "customData", true, false, .plain⟩],
    fromJ :=
      [⟨"requestId", "requestId", false, false, .plain⟩,
       ⟨"reportBase", "reportBase", false, false, (.enum "v2.ReportBaseEnum")⟩,
       ⟨"customData", "customData", true, false, .plain⟩] }

/-- `GetBaseReportResponse`, include/ocpp/v2/messages/GetBaseReport.hpp l.40; `to_json`, lib/ocpp/v2/messages/GetBaseReport.cpp l.54-66; `from_json`, l.68-79. -/
def t_v2_GetBaseReportResponse : TypeTable :=
  { name := "v2.GetBaseReportResponse",
    fields :=
      [⟨"status", false, false, .enum "v2.GenericDeviceModelStatusEnum"⟩,
       ⟨"statusInfo", true, false, .struct "v2.StatusInfo"⟩,
       ⟨"customData", true, false, .json⟩],
    toJ :=
      [⟨"status", "status", false, false, (.enum "v2.GenericDeviceModelStatusEnum")⟩,
       ⟨"statusInfo", "statusInfo", true, false, .plain⟩,
       ⟨"customData", "customData", true, false, .plain⟩],
    fromJ :=
      [⟨"status", "status", false, false, (.enum "v2.GenericDeviceModelStatusEnum")⟩,
       ⟨"statusInfo", "statusInfo", true, false, .plain⟩,
       ⟨"customData", "customData", true, false, .plain⟩] }

/-- `GetCertificateStatusRequest`, include/ocpp/v2/messages/GetCertificateStatus.hpp l.19; `to_json`, lib/ocpp/v2/messages/GetCertificateStatus.cpp l.20-29; `from_json`, l.31-39. -/
def t_v2_GetCertificateStatusRequest : TypeTable :=
  { name := "v2.GetCertificateStatusRequest",
    fields :=
      [⟨"ocspRequestData", false, false, .struct "v2.OCSPRequestData"⟩,
       ⟨"customData", true, false, .json⟩],
    toJ :=
      [⟨"ocspRequestData", "ocspRequestData", false, false, .plain⟩,
       ⟨"customData", "customData", true, false, .plain⟩],
    fromJ :=
      [⟨"ocspRequestData", "ocspRequestData", false, false, .plain⟩,
       ⟨"customData", "customData", true, false, .plain⟩] }

/-- `GetCertificateStatusResponse`, include/ocpp/v2/messages/GetCertificateStatus.hpp l.40; `to_json`, lib/ocpp/v2/messages/GetCertificateStatus.cpp l.53-68; `from_json`, l.70-84. -/
def t_v2_GetCertificateStatusResponse : TypeTable :=
  { name := "v2.GetCertificateStatusResponse",
    fields :=
      [⟨"status", false, false, .enum "v2.GetCertificateStatusEnum"⟩,
       ⟨"statusInfo", true, false, .struct "v2.StatusInfo"⟩,
       ⟨"ocspResult", true, false, .str (some 18000)⟩,
       ⟨"customData", true, false, .json⟩],
    toJ :=
      [⟨"status", "status", false, false, (.enum "v2.GetCertificateStatusEnum")⟩,
       ⟨"statusInfo", "statusInfo", true, false, .plain⟩,
       ⟨"ocspResult", "ocspResult", true, false, .plain⟩,
       ⟨"customData", "customData", true, false, .plain⟩],
    fromJ :=
      [⟨"status", "status", false, false, (.enum "v2.GetCertificateStatusEnum")⟩,
       ⟨"statusInfo", "statusInfo", true, false, .plain⟩,
       ⟨"ocspResult", "ocspResult", true, false, .plain⟩,
       ⟨"customData", "customData", true, false, .plain⟩] }

/-- `GetChargingProfilesRequest`, include/ocpp/v2/messages/GetChargingProfiles.hpp l.19; `to_json`, lib/ocpp/v2/messages/GetChargingProfiles.cpp l.20-33; `from_json`, l.35-47. -/
def t_v2_GetChargingProfilesRequest : TypeTable :=
  { name := "v2.GetChargingProfilesRequest",
    fields :=
      [⟨"requestId", false, false, .int⟩,
       ⟨"chargingProfile", false, false, .struct "v2.ChargingProfileCriterion"⟩,
       ⟨"evseId", true, false, .int⟩,
       ⟨"customData", true, false, .json⟩],
    toJ :=
      [⟨"requestId", "requestId", false, false, .plain⟩,
       ⟨"chargingProfile", "chargingProfile", false, false, .plain⟩,
       ⟨"evseId", "evseId", true, false, .plain⟩,
       ⟨"customData", "customData", true, false, .plain⟩],
    fromJ :=
      [⟨"requestId", "requestId", false, false, .plain⟩,
       ⟨"chargingProfile", "chargingProfile", false, false, .plain⟩,
       ⟨"evseId", "evseId", true, false, .plain⟩,
       ⟨"customData", "customData", true, false, .plain⟩] }

/-- `GetChargingProfilesResponse`, include/ocpp/v2/messages/GetChargingProfiles.hpp l.42; `to_json`, lib/ocpp/v2/messages/GetChargingProfiles.cpp l.61-73; `from_json`, l.75-86. -/
def t_v2_GetChargingProfilesResponse : TypeTable :=
  { name := "v2.GetChargingProfilesResponse",
    fields :=
      [⟨"status", false, false, .enum "v2.GetChargingProfileStatusEnum"⟩,
       ⟨"statusInfo", true, false, .struct "v2.StatusInfo"⟩,
       ⟨"customData", true, false, .json⟩],
    toJ :=
      [⟨"status", "status", false, false, (.enum "v2.GetChargingProfileStatusEnum")⟩,
       ⟨"statusInfo", "statusInfo", true, false, .plain⟩,
       ⟨"customData", "customData", true, false, .plain⟩],
    fromJ :=
      [⟨"status", "status", false, false, (.enum "v2.GetChargingProfileStatusEnum")⟩,
       ⟨"statusInfo", "statusInfo", true, false, .plain⟩,
       ⟨"customData", "customData", true, false, .plain⟩] }

/-- `GetCompositeScheduleRequest`, include/ocpp/v2/messages/GetCompositeSchedule.hpp l.19; `to_json`, lib/ocpp/v2/messages/GetCompositeSchedule.cpp l.20-33; `from_json`, l.35-47. -/
def t_v2_GetCompositeScheduleRequest : TypeTable :=
  { name := "v2.GetCompositeScheduleRequest",
    fields :=
      [⟨"duration", false, false, .int⟩,
       ⟨"evseId", false, false, .int⟩,
       ⟨"chargingRateUnit", true, false, .enum "v2.ChargingRateUnitEnum"⟩,
       ⟨"customData", true, false, .json⟩],
    toJ :=
      [⟨"duration", "duration", false, false, .plain⟩,
       ⟨"evseId", "evseId", false, false, .plain⟩,
       ⟨"chargingRateUnit", "chargingRateUnit", true, false, (.enum "v2.ChargingRateUnitEnum")⟩,
       ⟨"customData", "customData", true, false, .plain⟩],
    fromJ :=
      [⟨"duration", "duration", false, false, .plain⟩,
       ⟨"evseId", "evseId", false, false, .plain⟩,
       ⟨"chargingRateUnit", "chargingRateUnit", true, false, (.enum "v2.ChargingRateUnitEnum")⟩,
       ⟨"customData", "customData", true, false, .plain⟩] }

/-- `GetCompositeScheduleResponse`, include/ocpp/v2/messages/GetCompositeSchedule.hpp l.42; `to_json`, lib/ocpp/v2/messages/GetCompositeSchedule.cpp l.61-76; `from_json`, l.78-92. -/
def t_v2_GetCompositeScheduleResponse : TypeTable :=
  { name := "v2.GetCompositeScheduleResponse",
    fields :=
      [⟨"status", false, false, .enum "v2.GenericStatusEnum"⟩,
       ⟨"statusInfo", true, false, .struct "v2.StatusInfo"⟩,
       ⟨"schedule", true, false, .struct "v2.CompositeSchedule"⟩,
       ⟨"customData", true, false, .json⟩],
    toJ :=
      [⟨"status", "status", false, false, (.enum "v2.GenericStatusEnum")⟩,
       ⟨"statusInfo", "statusInfo", true, false, .plain⟩,
       ⟨"schedule", "schedule", true, false, .plain⟩,
       ⟨"customData", "customData", true, false, .plain⟩],
    fromJ :=
      [⟨"status", "status", false, false, (.enum "v2.GenericStatusEnum")⟩,
       ⟨"statusInfo", "statusInfo", true, false, .plain⟩,
       ⟨"schedule", "schedule", true, false, .plain⟩,
       ⟨"customData", "customData", true, false, .plain⟩] }

/-- `GetDisplayMessagesRequest`, include/ocpp/v2/messages/GetDisplayMessages.hpp l.19; `to_json`, lib/ocpp/v2/messages/GetDisplayMessages.cpp l.20-41; `from_json`, l.43-65. -/
def t_v2_GetDisplayMessagesRequest : TypeTable :=
  { name := "v2.GetDisplayMessagesRequest",
    fields :=
      [⟨"requestId", false, false, .int⟩,
       ⟨"id", true, true, .int⟩,
       ⟨"priority", true, false, .enum "v2.MessagePriorityEnum"⟩,
       ⟨"state", true, false, .enum "v2.MessageStateEnum"⟩,
       ⟨"customData", true, false, .json⟩],
    toJ :=
      [⟨"requestId", "requestId", false, false, .plain⟩,
       ⟨"id", "id", true, true, .plain⟩,
       ⟨"priority", "priority", true, false, (.enum "v2.MessagePriorityEnum")⟩,
       ⟨"state", "state", true, false, (.enum "v2.MessageStateEnum")⟩,
       ⟨"customData", "customData", true, false, .plain⟩],
    fromJ :=
      [⟨"requestId", "requestId", false, false, .plain⟩,
       ⟨"id", "id", true, true, .plain⟩,
       ⟨"priority", "priority", true, false, (.enum "v2.MessagePriorityEnum")⟩,
       ⟨"state", "state", true, false, (.enum "v2.MessageStateEnum")⟩,
       ⟨"customData", "customData", true, false, .plain⟩] }

/-- `GetDisplayMessagesResponse`, include/ocpp/v2/messages/GetDisplayMessages.hpp l.42; `to_json`, lib/ocpp/v2/messages/GetDisplayMessages.cpp l.78-90; `from_json`, l.92-103. -/
def t_v2_GetDisplayMessagesResponse : TypeTable :=
  { name := "v2.GetDisplayMessagesResponse",
    fields :=
      [⟨"status", false, false, .enum "v2.GetDisplayMessagesStatusEnum"⟩,
       ⟨"statusInfo", true, false, .struct "v2.StatusInfo"⟩,
       ⟨"customData", true, false, .json⟩],
    toJ :=
      [⟨"status", "status", false, false, (.enum "v2.GetDisplayMessagesStatusEnum")⟩,
       ⟨"statusInfo", "statusInfo", true, false, .plain⟩,
       ⟨"customData", "customData", true, false, .plain⟩],
    fromJ :=
      [⟨"status", "status", false, false, (.enum "v2.GetDisplayMessagesStatusEnum")⟩,
       ⟨"statusInfo", "statusInfo", true, false, .plain⟩,
       ⟨"customData", "customData", true, false, .plain⟩] }

/-- `GetInstalledCertificateIdsRequest`, include/ocpp/v2/messages/GetInstalledCertificateIds.hpp l.19; `to_json`, lib/ocpp/v2/messages/GetInstalledCertificateIds.cpp l.20-37; `from_json`, l.39-54. -/
def t_v2_GetInstalledCertificateIdsRequest : TypeTable :=
  { name := "v2.GetInstalledCertificateIdsRequest",
    fields :=
      [⟨"certificateType", true, true, .enum "v2.GetCertificateIdUseEnum"⟩,
       ⟨"customData", true, false, .json⟩],
    toJ :=
      [⟨"certificateType", "certificateType", true, true, (.enum "v2.GetCertificateIdUseEnum")⟩,
       ⟨"customData", "customData", true, false, .plain⟩],
    fromJ :=
      [⟨"certificateType", "certificateType", true, true, (.enum "v2.GetCertificateIdUseEnum")⟩,
       ⟨"customData", "customData", true, false, .plain⟩] }

/-- `GetInstalledCertificateIdsResponse`, include/ocpp/v2/messages/GetInstalledCertificateIds.hpp l.40; `to_json`, lib/ocpp/v2/messages/GetInstalledCertificateIds.cpp l.68-86; `from_json`, l.88-107. -/
def t_v2_GetInstalledCertificateIdsResponse : TypeTable :=
  { name := "v2.GetInstalledCertificateIdsResponse",
    fields :=
      [⟨"status", false, false, .enum "v2.GetInstalledCertificateStatusEnum"⟩,
       ⟨"statusInfo", true, false, .struct "v2.StatusInfo"⟩,
       ⟨"certificateHashDataChain", true, true, .struct "v2.CertificateHashDataChain"⟩,
       ⟨"customData", true, false, .json⟩],
    toJ :=
      [⟨"status", "status", false, false, (.enum "v2.GetInstalledCertificateStatusEnum")⟩,
       ⟨"statusInfo", "statusInfo", true, false, .plain⟩,
       ⟨"certificateHashDataChain", "certificateHashDataChain", true, true, .plain⟩,
       ⟨"customData", "customData", true, false, .plain⟩],
    fromJ :=
      [⟨"status", "status", false, false, (.enum "v2.GetInstalledCertificateStatusEnum")⟩,
       ⟨"statusInfo", "statusInfo", true, false, .plain⟩,
       ⟨"certificateHashDataChain", "certificateHashDataChain", true, true, .plain⟩,
       ⟨"customData", "customData", true, false, .plain⟩] }

/-- `GetLocalListVersionRequest`, include/ocpp/v2/messages/GetLocalListVersion.hpp l.18; `to_json`, lib/ocpp/v2/messages/GetLocalListVersion.cpp l.20-27; `from_json`, l.29-36. -/
def t_v2_GetLocalListVersionRequest : TypeTable :=
  { name := "v2.GetLocalListVersionRequest",
    fields :=
      [⟨"customData", true, false, .json⟩],
    toJ :=
      [⟨"customData", "customData", true, false, .plain⟩],
    fromJ :=
      [⟨"customData", "customData", true, false, .plain⟩] }

/-- `GetLocalListVersionResponse`, include/ocpp/v2/messages/GetLocalListVersion.hpp l.38; `to_json`, lib/ocpp/v2/messages/GetLocalListVersion.cpp l.50-59; `from_json`, l.61-69. -/
def t_v2_GetLocalListVersionResponse : TypeTable :=
  { name := "v2.GetLocalListVersionResponse",
    fields :=
      [⟨"versionNumber", false, false, .int⟩,
       ⟨"customData", true, false, .json⟩],
    toJ :=
      [⟨"versionNumber", "versionNumber", false, false, .plain⟩,
       ⟨"customData", "customData", true, false, .plain⟩],
    fromJ :=
      [⟨"versionNumber", "versionNumber", false, false, .plain⟩,
       ⟨"customData", "customData", true, false, .plain⟩] }

/-- All of them. -/
def typesV2b : List TypeTable :=
  [t_v2_Address, t_v2_ChargingScheduleUpdate, t_v2_ChargingProfile, t_v2_DERCurvePoints, t_v2_Hysteresis, t_v2_ReactivePowerParams, t_v2_VoltageParams,
   t_v2_DERCurve, t_v2_DERCurveGet, t_v2_EnterService, t_v2_EnterServiceGet, t_v2_FixedPF, t_v2_FixedPFGet, t_v2_FixedVar, t_v2_FixedVarGet,
   t_v2_FreqDroop, t_v2_FreqDroopGet, t_v2_Gradient, t_v2_GradientGet, t_v2_LimitMaxDischarge, t_v2_LimitMaxDischargeGet, t_v2_AuthorizationData,
   t_v2_APN, t_v2_VPN, t_v2_NetworkConnectionProfile, t_v2_SetMonitoringData, t_v2_SetMonitoringResult, t_v2_SetVariableData, t_v2_SetVariableResult,
   t_v2_CostDimension, t_v2_ChargingPeriod, t_v2_TotalPrice, t_v2_TotalCost, t_v2_TotalUsage, t_v2_CostDetails, t_v2_TransactionLimit,
   t_v2_Transaction, t_v2_Firmware, t_v2_AuthorizeRequest, t_v2_AuthorizeResponse, t_v2_BootNotificationRequest, t_v2_BootNotificationResponse,
   t_v2_CancelReservationRequest, t_v2_CancelReservationResponse, t_v2_CertificateSignedRequest, t_v2_CertificateSignedResponse,
   t_v2_ChangeAvailabilityRequest, t_v2_ChangeAvailabilityResponse, t_v2_ClearCacheRequest, t_v2_ClearCacheResponse, t_v2_ClearChargingProfileRequest,
   t_v2_ClearChargingProfileResponse, t_v2_ClearDisplayMessageRequest, t_v2_ClearDisplayMessageResponse, t_v2_ClearVariableMonitoringRequest,
   t_v2_ClearVariableMonitoringResponse, t_v2_ClearedChargingLimitRequest, t_v2_ClearedChargingLimitResponse, t_v2_CostUpdatedRequest,
   t_v2_CostUpdatedResponse, t_v2_CustomerInformationRequest, t_v2_CustomerInformationResponse, t_v2_DataTransferRequest, t_v2_DataTransferResponse,
   t_v2_DeleteCertificateRequest, t_v2_DeleteCertificateResponse, t_v2_FirmwareStatusNotificationRequest, t_v2_FirmwareStatusNotificationResponse,
   t_v2_Get15118EVCertificateRequest, t_v2_Get15118EVCertificateResponse, t_v2_GetBaseReportRequest, t_v2_GetBaseReportResponse,
   t_v2_GetCertificateStatusRequest, t_v2_GetCertificateStatusResponse, t_v2_GetChargingProfilesRequest, t_v2_GetChargingProfilesResponse,
   t_v2_GetCompositeScheduleRequest, t_v2_GetCompositeScheduleResponse, t_v2_GetDisplayMessagesRequest, t_v2_GetDisplayMessagesResponse,
   t_v2_GetInstalledCertificateIdsRequest, t_v2_GetInstalledCertificateIdsResponse, t_v2_GetLocalListVersionRequest, t_v2_GetLocalListVersionResponse]

end Verif.Wire
