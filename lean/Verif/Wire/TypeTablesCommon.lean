import Verif.Wire.TypeModel

/-!
Structs of include/ocpp/common/types.hpp and include/ocpp/v16/types.hpp with both conversions; the first part generated like the other tables.
-/

namespace Verif.Wire

/-- `Current`, include/ocpp/common/types.hpp l.174; `to_json`, lib/ocpp/common/types.cpp l.141-160; `from_json`, l.162-181. -/
def t_common_Current : TypeTable :=
  { name := "common.Current",
    fields :=
      [⟨"DC", true, false, .num⟩,
       ⟨"L1", true, false, .num⟩,
       ⟨"L2", true, false, .num⟩,
       ⟨"L3", true, false, .num⟩,
       ⟨"N", true, false, .num⟩],
    toJ :=
      [⟨"DC", "DC", true, false, .plain⟩,
       ⟨"L1", "L1", true, false, .plain⟩,
       ⟨"L2", "L2", true, false, .plain⟩,
       ⟨"L3", "L3", true, false, .plain⟩,
       ⟨"N", "N", true, false, .plain⟩],
    fromJ :=
      [⟨"DC", "DC", true, false, .plain⟩,
       ⟨"L1", "L1", true, false, .plain⟩,
       ⟨"L2", "L2", true, false, .plain⟩,
       ⟨"L3", "L3", true, false, .plain⟩,
       ⟨"N", "N", true, false, .plain⟩] }

/-- `Voltage`, include/ocpp/common/types.hpp l.191; `to_json`, lib/ocpp/common/types.cpp l.188-204; `from_json`, l.206-222. -/
def t_common_Voltage : TypeTable :=
  { name := "common.Voltage",
    fields :=
      [⟨"DC", true, false, .num⟩,
       ⟨"L1", true, false, .num⟩,
       ⟨"L2", true, false, .num⟩,
       ⟨"L3", true, false, .num⟩],
    toJ :=
      [⟨"DC", "DC", true, false, .plain⟩,
       ⟨"L1", "L1", true, false, .plain⟩,
       ⟨"L2", "L2", true, false, .plain⟩,
       ⟨"L3", "L3", true, false, .plain⟩],
    fromJ :=
      [⟨"DC", "DC", true, false, .plain⟩,
       ⟨"L1", "L1", true, false, .plain⟩,
       ⟨"L2", "L2", true, false, .plain⟩,
       ⟨"L3", "L3", true, false, .plain⟩] }

/-- `Frequency`, include/ocpp/common/types.hpp l.207; `to_json`, lib/ocpp/common/types.cpp l.229-241; `from_json`, l.243-254. -/
def t_common_Frequency : TypeTable :=
  { name := "common.Frequency",
    fields :=
      [⟨"L1", false, false, .num⟩,
       ⟨"L2", true, false, .num⟩,
       ⟨"L3", true, false, .num⟩],
    toJ :=
      [⟨"L1", "L1", false, false, .plain⟩,
       ⟨"L2", "L2", true, false, .plain⟩,
       ⟨"L3", "L3", true, false, .plain⟩],
    fromJ :=
      [⟨"L1", "L1", false, false, .plain⟩,
       ⟨"L2", "L2", true, false, .plain⟩,
       ⟨"L3", "L3", true, false, .plain⟩] }

/-- `Power`, include/ocpp/common/types.hpp l.222; `to_json`, lib/ocpp/common/types.cpp l.261-276; `from_json`, l.278-292. -/
def t_common_Power : TypeTable :=
  { name := "common.Power",
    fields :=
      [⟨"total", false, false, .num⟩,
       ⟨"L1", true, false, .num⟩,
       ⟨"L2", true, false, .num⟩,
       ⟨"L3", true, false, .num⟩],
    toJ :=
      [⟨"total", "total", false, false, .plain⟩,
       ⟨"L1", "L1", true, false, .plain⟩,
       ⟨"L2", "L2", true, false, .plain⟩,
       ⟨"L3", "L3", true, false, .plain⟩],
    fromJ :=
      [⟨"total", "total", false, false, .plain⟩,
       ⟨"L1", "L1", true, false, .plain⟩,
       ⟨"L2", "L2", true, false, .plain⟩,
       ⟨"L3", "L3", true, false, .plain⟩] }

/-- `Energy`, include/ocpp/common/types.hpp l.238; `to_json`, lib/ocpp/common/types.cpp l.299-314; `from_json`, l.316-330. -/
def t_common_Energy : TypeTable :=
  { name := "common.Energy",
    fields :=
      [⟨"total", false, false, .num⟩,
       ⟨"L1", true, false, .num⟩,
       ⟨"L2", true, false, .num⟩,
       ⟨"L3", true, false, .num⟩],
    toJ :=
      [⟨"total", "total", false, false, .plain⟩,
       ⟨"L1", "L1", true, false, .plain⟩,
       ⟨"L2", "L2", true, false, .plain⟩,
       ⟨"L3", "L3", true, false, .plain⟩],
    fromJ :=
      [⟨"total", "total", false, false, .plain⟩,
       ⟨"L1", "L1", true, false, .plain⟩,
       ⟨"L2", "L2", true, false, .plain⟩,
       ⟨"L3", "L3", true, false, .plain⟩] }

/-- `ReactivePower`, include/ocpp/common/types.hpp l.254; `to_json`, lib/ocpp/common/types.cpp l.337-352; `from_json`, l.354-368. -/
def t_common_ReactivePower : TypeTable :=
  { name := "common.ReactivePower",
    fields :=
      [⟨"total", false, false, .num⟩,
       ⟨"VARphA", true, false, .num⟩,
       ⟨"VARphB", true, false, .num⟩,
       ⟨"VARphC", true, false, .num⟩],
    toJ :=
      [⟨"total", "total", false, false, .plain⟩,
       ⟨"VARphA", "VARphA", true, false, .plain⟩,
       ⟨"VARphB", "VARphB", true, false, .plain⟩,
       ⟨"VARphC", "VARphC", true, false, .plain⟩],
    fromJ :=
      [⟨"total", "total", false, false, .plain⟩,
       ⟨"VARphA", "VARphA", true, false, .plain⟩,
       ⟨"VARphB", "VARphB", true, false, .plain⟩,
       ⟨"VARphC", "VARphC", true, false, .plain⟩] }

/-- `Powermeter`, include/ocpp/common/types.hpp l.271; `to_json`, lib/ocpp/common/types.cpp l.375-406; `from_json`, l.408-438. -/
def t_common_Powermeter : TypeTable :=
  { name := "common.Powermeter",
    fields :=
      [⟨"timestamp", false, false, .str none⟩,
       ⟨"energy_Wh_import", false, false, .struct "common.Energy"⟩,
       ⟨"meter_id", true, false, .str none⟩,
       ⟨"phase_seq_error", true, false, .bool⟩,
       ⟨"energy_Wh_export", true, false, .struct "common.Energy"⟩,
       ⟨"power_W", true, false, .struct "common.Power"⟩,
       ⟨"voltage_V", true, false, .struct "common.Voltage"⟩,
       ⟨"VAR", true, false, .struct "common.ReactivePower"⟩,
       ⟨"current_A", true, false, .struct "common.Current"⟩,
       ⟨"frequency_Hz", true, false, .struct "common.Frequency"⟩],
    toJ :=
      [⟨"timestamp", "timestamp", false, false, .plain⟩,
       ⟨"energy_Wh_import", "energy_Wh_import", false, false, .plain⟩,
       ⟨"meter_id", "meter_id", true, false, .plain⟩,
       ⟨"phase_seq_error", "phase_seq_error", true, false, .plain⟩,
       ⟨"energy_Wh_export", "energy_Wh_export", true, false, .plain⟩,
       ⟨"power_W", "power_W", true, false, .plain⟩,
       ⟨"voltage_V", "voltage_V", true, false, .plain⟩,
       ⟨"VAR", "VAR", true, false, .plain⟩,
       ⟨"current_A", "current_A", true, false, .plain⟩,
       ⟨"frequency_Hz", "frequency_Hz", true, false, .plain⟩],
    fromJ :=
      [⟨"timestamp", "timestamp", false, false, .plain⟩,
       ⟨"energy_Wh_import", "energy_Wh_import", false, false, .plain⟩,
       ⟨"meter_id", "meter_id", true, false, .plain⟩,
       ⟨"phase_seq_error", "phase_seq_error", true, false, .plain⟩,
       ⟨"energy_Wh_export", "energy_Wh_export", true, false, .plain⟩,
       ⟨"power_W", "power_W", true, false, .plain⟩,
       ⟨"voltage_V", "voltage_V", true, false, .plain⟩,
       ⟨"VAR", "VAR", true, false, .plain⟩,
       ⟨"current_A", "current_A", true, false, .plain⟩,
       ⟨"frequency_Hz", "frequency_Hz", true, false, .plain⟩] }

/-- `StateOfCharge`, include/ocpp/common/types.hpp l.295; `to_json`, lib/ocpp/common/types.cpp l.471-480; `from_json`, l.482-490. -/
def t_common_StateOfCharge : TypeTable :=
  { name := "common.StateOfCharge",
    fields :=
      [⟨"value", false, false, .num⟩,
       ⟨"location", true, false, .str none⟩],
    toJ :=
      [⟨"value", "value", false, false, .plain⟩,
       ⟨"location", "location", true, false, .plain⟩],
    fromJ :=
      [⟨"value", "value", false, false, .plain⟩,
       ⟨"location", "location", true, false, .plain⟩] }

/-- `Temperature`, include/ocpp/common/types.hpp l.310; `to_json`, lib/ocpp/common/types.cpp l.445-454; `from_json`, l.456-464. -/
def t_common_Temperature : TypeTable :=
  { name := "common.Temperature",
    fields :=
      [⟨"value", false, false, .num⟩,
       ⟨"location", true, false, .str none⟩],
    toJ :=
      [⟨"value", "value", false, false, .plain⟩,
       ⟨"location", "location", true, false, .plain⟩],
    fromJ :=
      [⟨"value", "value", false, false, .plain⟩,
       ⟨"location", "location", true, false, .plain⟩] }

/-- `RPM`, include/ocpp/common/types.hpp l.325; `to_json`, lib/ocpp/common/types.cpp l.497-506; `from_json`, l.508-516. -/
def t_common_RPM : TypeTable :=
  { name := "common.RPM",
    fields :=
      [⟨"value", false, false, .num⟩,
       ⟨"location", true, false, .str none⟩],
    toJ :=
      [⟨"value", "value", false, false, .plain⟩,
       ⟨"location", "location", true, false, .plain⟩],
    fromJ :=
      [⟨"value", "value", false, false, .plain⟩,
       ⟨"location", "location", true, false, .plain⟩] }

/-- `CertificateHashDataType`, include/ocpp/common/types.hpp l.567; `to_json`, lib/ocpp/common/types.cpp l.959-968; `from_json`, l.971-979. -/
def t_common_CertificateHashDataType : TypeTable :=
  { name := "common.CertificateHashDataType",
    fields :=
      [⟨"hashAlgorithm", false, false, .enum "common.HashAlgorithmEnumType"⟩,
       ⟨"issuerNameHash", false, false, .str (some 128)⟩,
       ⟨"issuerKeyHash", false, false, .str (some 128)⟩,
       ⟨"serialNumber", false, false, .str (some 40)⟩],
    toJ :=
      [⟨"hashAlgorithm", "hashAlgorithm", false, false, (.enum "common.HashAlgorithmEnumType")⟩,
       ⟨"issuerNameHash", "issuerNameHash", false, false, .plain⟩,
       ⟨"issuerKeyHash", "issuerKeyHash", false, false, .plain⟩,
       ⟨"serialNumber", "serialNumber", false, false, .plain⟩],
    fromJ :=
      [⟨"hashAlgorithm", "hashAlgorithm", false, false, (.enum "common.HashAlgorithmEnumType")⟩,
       ⟨"issuerNameHash", "issuerNameHash", false, false, .plain⟩,
       ⟨"issuerKeyHash", "issuerKeyHash", false, false, .plain⟩,
       ⟨"serialNumber", "serialNumber", false, false, .plain⟩] }

/-- `CertificateHashDataChain`, include/ocpp/common/types.hpp l.606; `to_json`, lib/ocpp/common/types.cpp l.989-1002; `from_json`, l.1005-1019. -/
def t_common_CertificateHashDataChain : TypeTable :=
  { name := "common.CertificateHashDataChain",
    fields :=
      [⟨"certificateHashData", false, false, .struct "common.CertificateHashDataType"⟩,
       ⟨"certificateType", false, false, .enum "common.CertificateType"⟩,
       ⟨"childCertificateHashData", true, true, .struct "common.CertificateHashDataType"⟩],
    toJ :=
      [⟨"certificateHashData", "certificateHashData", false, false, .plain⟩,
       ⟨"certificateType", "certificateType", false, false, (.enum "common.CertificateType")⟩,
       ⟨"childCertificateHashData", "childCertificateHashData", true, true, .plain⟩],
    fromJ :=
      [⟨"certificateHashData", "certificateHashData", false, false, .plain⟩,
       ⟨"certificateType", "certificateType", false, false, (.enum "common.CertificateType")⟩,
       ⟨"childCertificateHashData", "childCertificateHashData", true, true, .plain⟩] }

/-- `EnhancedChargingSchedulePeriod`, include/ocpp/v16/types.hpp l.205; `to_json`, lib/ocpp/v16/types.cpp l.569-576; `from_json`, l.579-589.  `periodTransformed` is neither written nor read and left out. -/
def t_v16_EnhancedChargingSchedulePeriod : TypeTable :=
  { name := "v16.EnhancedChargingSchedulePeriod",
    fields :=
      [⟨"startPeriod", false, false, .int⟩,
       ⟨"limit", false, false, .num⟩,
       ⟨"stackLevel", false, false, .int⟩,
       ⟨"numberPhases", true, false, .int⟩],
    toJ :=
      [⟨"startPeriod", "startPeriod", false, false, .plain⟩,
       ⟨"limit", "limit", false, false, .plain⟩,
       ⟨"stackLevel", "stackLevel", false, false, .plain⟩,
       ⟨"numberPhases", "numberPhases", true, false, .plain⟩],
    fromJ :=
      [⟨"startPeriod", "startPeriod", false, false, .plain⟩,
       ⟨"limit", "limit", false, false, .plain⟩,
       ⟨"stackLevel", "stackLevel", false, false, .plain⟩,
       ⟨"numberPhases", "numberPhases", true, false, .plain⟩] }

/-- `EnhancedChargingSchedule`, include/ocpp/v16/types.hpp l.221; `to_json`, lib/ocpp/v16/types.cpp l.592-608; `from_json`, l.611-628. -/
def t_v16_EnhancedChargingSchedule : TypeTable :=
  { name := "v16.EnhancedChargingSchedule",
    fields :=
      [⟨"chargingRateUnit", false, false, .enum "v16.ChargingRateUnit"⟩,
       ⟨"chargingSchedulePeriod", false, true, .struct "v16.EnhancedChargingSchedulePeriod"⟩,
       ⟨"duration", true, false, .int⟩,
       ⟨"startSchedule", true, false, .time⟩,
       ⟨"minChargingRate", true, false, .num⟩],
    toJ :=
      [⟨"chargingRateUnit", "chargingRateUnit", false, false, (.enum "v16.ChargingRateUnit")⟩,
       ⟨"chargingSchedulePeriod", "chargingSchedulePeriod", false, false, .plain⟩,
       ⟨"duration", "duration", true, false, .plain⟩,
       ⟨"startSchedule", "startSchedule", true, false, .time⟩,
       ⟨"minChargingRate", "minChargingRate", true, false, .plain⟩],
    fromJ :=
      [⟨"chargingRateUnit", "chargingRateUnit", false, false, (.enum "v16.ChargingRateUnit")⟩,
       ⟨"chargingSchedulePeriod", "chargingSchedulePeriod", false, true, .plain⟩,
       ⟨"duration", "duration", true, false, .plain⟩,
       ⟨"startSchedule", "startSchedule", true, false, .time⟩,
       ⟨"minChargingRate", "minChargingRate", true, false, .plain⟩] }

/-- `Measurement`, include/ocpp/common/types.hpp l.340; `to_json`, lib/ocpp/common/types.cpp l.523-532; `from_json`, l.534-543.  The members of
`power_meter` are written beside the others, so they are members of the struct here. -/
def t_common_Measurement : TypeTable :=
  { name := "common.Measurement",
    fields := t_common_Powermeter.fields ++
      [⟨"temperature_C", false, true, .struct "common.Temperature"⟩,
       ⟨"soc_Percent", true, false, .struct "common.StateOfCharge"⟩,
       ⟨"rpm", true, false, .struct "common.RPM"⟩],
    toJ := t_common_Powermeter.toJ ++
      [⟨"temperature_C", "temperature_C", false, false, .plain⟩,
       ⟨"soc_Percent", "soc_Percent", true, false, .plain⟩,
       ⟨"rpm", "rpm", true, false, .plain⟩],
    fromJ := t_common_Powermeter.fromJ ++
      [⟨"temperature_C", "temperature_C", false, false, .plain⟩,
       ⟨"soc_Percent", "soc_Percent", true, false, .plain⟩,
       ⟨"rpm", "rpm", true, false, .plain⟩] }

/-- `RunningCostChargingPrice`, include/ocpp/common/types.hpp l.394; `to_json`, lib/ocpp/common/types.cpp l.590-602; `from_json`, l.576-588. -/
def t_common_RunningCostChargingPrice : TypeTable :=
  { name := "common.RunningCostChargingPrice",
    fields :=
      [⟨"kWh_price", true, false, .num⟩,
       ⟨"hour_price", true, false, .num⟩,
       ⟨"flat_fee", true, false, .num⟩],
    toJ :=
      [⟨"kWhPrice", "kWh_price", true, false, .plain⟩,
       ⟨"hourPrice", "hour_price", true, false, .plain⟩,
       ⟨"flatFee", "flat_fee", true, false, .plain⟩],
    fromJ :=
      [⟨"kWhPrice", "kWh_price", true, false, .plain⟩,
       ⟨"hourPrice", "hour_price", true, false, .plain⟩,
       ⟨"flatFee", "flat_fee", true, false, .plain⟩] }

/-- `DisplayMessageContent`, include/ocpp/common/types.hpp l.357; `to_json`, lib/ocpp/common/types.cpp l.564-574; `from_json`, l.550-562.  Not in the
list below: see `C106_violated`. -/
def t_common_DisplayMessageContent : TypeTable :=
  { name := "common.DisplayMessageContent",
    fields :=
      [⟨"message", false, false, .str none⟩,
       ⟨"language", true, false, .str none⟩,
       ⟨"message_format", true, false, .enum "v2.MessageFormatEnum"⟩],
    toJ :=
      [⟨"message", "message", false, false, .plain⟩,
       ⟨"format", "message_format", true, false, .enum "v2.MessageFormatEnum"⟩,
       ⟨"language", "language", true, false, .plain⟩],
    fromJ :=
      [⟨"content", "message", true, false, .plain⟩,
       ⟨"format", "message_format", true, false, .enum "v2.MessageFormatEnum"⟩,
       ⟨"language", "language", true, false, .plain⟩] }

/-- All of them but `DisplayMessageContent`. -/
def typesCommon : List TypeTable :=
  [t_common_Current, t_common_Voltage, t_common_Frequency, t_common_Power, t_common_Energy, t_common_ReactivePower, t_common_Powermeter,
   t_common_StateOfCharge, t_common_Temperature, t_common_RPM, t_common_CertificateHashDataType, t_common_CertificateHashDataChain,
   t_v16_EnhancedChargingSchedulePeriod, t_v16_EnhancedChargingSchedule, t_common_Measurement, t_common_RunningCostChargingPrice]

end Verif.Wire
