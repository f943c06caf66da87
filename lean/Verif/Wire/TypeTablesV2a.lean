import Verif.Wire.TypeModel

/-!
Generated from the declarations and conversions of the structs of OCPP 2.0.1 and 2.1, by a script that reads the text of the cited files: the members
declared in the header ⟨name, optional, vector, type⟩, and the statements of `to_json` and of `from_json` ⟨key, member, under `if`, in a loop, conversion⟩.
-/

namespace Verif.Wire

/-- `StatusInfo`, include/ocpp/v2/ocpp_types.hpp l.21; `to_json`, lib/ocpp/v2/ocpp_types.cpp l.19-31; `from_json`, l.34-45. -/
def t_v2_StatusInfo : TypeTable :=
  { name := "v2.StatusInfo",
    fields :=
      [⟨"reasonCode", false, false, .str (some 20)⟩,
       ⟨"additionalInfo", true, false, .str (some 1024)⟩,
       ⟨"customData", true, false, .json⟩],
    toJ :=
      [⟨"reasonCode", "reasonCode", false, false, .plain⟩,
       ⟨"additionalInfo", "additionalInfo", true, false, .plain⟩,
       ⟨"customData", "customData", true, false, .plain⟩],
    fromJ :=
      [⟨"reasonCode", "reasonCode", false, false, .plain⟩,
       ⟨"additionalInfo", "additionalInfo", true, false, .plain⟩,
       ⟨"customData", "customData", true, false, .plain⟩] }

/-- `PeriodicEventStreamParams`, include/ocpp/v2/ocpp_types.hpp l.36; `to_json`, lib/ocpp/v2/ocpp_types.cpp l.55-68; `from_json`, l.71-84. -/
def t_v2_PeriodicEventStreamParams : TypeTable :=
  { name := "v2.PeriodicEventStreamParams",
    fields :=
      [⟨"interval", true, false, .int⟩,
       ⟨"values", true, false, .int⟩,
       ⟨"customData", true, false, .json⟩],
    toJ :=
      [⟨"interval", "interval", true, false, .plain⟩,
       ⟨"values", "values", true, false, .plain⟩,
       ⟨"customData", "customData", true, false, .plain⟩],
    fromJ :=
      [⟨"interval", "interval", true, false, .plain⟩,
       ⟨"values", "values", true, false, .plain⟩,
       ⟨"customData", "customData", true, false, .plain⟩] }

/-- `AdditionalInfo`, include/ocpp/v2/ocpp_types.hpp l.51; `to_json`, lib/ocpp/v2/ocpp_types.cpp l.94-104; `from_json`, l.107-116. -/
def t_v2_AdditionalInfo : TypeTable :=
  { name := "v2.AdditionalInfo",
    fields :=
      [⟨"additionalIdToken", false, false, .str (some 255)⟩,
       ⟨"type", false, false, .str (some 50)⟩,
       ⟨"customData", true, false, .json⟩],
    toJ :=
      [⟨"additionalIdToken", "additionalIdToken", false, false, .plain⟩,
       ⟨"type", "type", false, false, .plain⟩,
       ⟨"customData", "customData", true, false, .plain⟩],
    fromJ :=
      [⟨"additionalIdToken", "additionalIdToken", false, false, .plain⟩,
       ⟨"type", "type", false, false, .plain⟩,
       ⟨"customData", "customData", true, false, .plain⟩] }

/-- `IdToken`, include/ocpp/v2/ocpp_types.hpp l.66; `to_json`, lib/ocpp/v2/ocpp_types.cpp l.126-142; `from_json`, l.145-162. -/
def t_v2_IdToken : TypeTable :=
  { name := "v2.IdToken",
    fields :=
      [⟨"idToken", false, false, .str (some 255)⟩,
       ⟨"type", false, false, .str (some 20)⟩,
       ⟨"additionalInfo", true, true, .struct "v2.AdditionalInfo"⟩,
       ⟨"customData", true, false, .json⟩],
    toJ :=
      [⟨"idToken", "idToken", false, false, .plain⟩,
       ⟨"type", "type", false, false, .plain⟩,
       ⟨"additionalInfo", "additionalInfo", true, true, .plain⟩,
       ⟨"customData", "customData", true, false, .plain⟩],
    fromJ :=
      [⟨"idToken", "idToken", false, false, .plain⟩,
       ⟨"type", "type", false, false, .plain⟩,
       ⟨"additionalInfo", "additionalInfo", true, true, .plain⟩,
       ⟨"customData", "customData", true, false, .plain⟩] }

/-- `OCSPRequestData`, include/ocpp/v2/ocpp_types.hpp l.82; `to_json`, lib/ocpp/v2/ocpp_types.cpp l.172-185; `from_json`, l.188-200. -/
def t_v2_OCSPRequestData : TypeTable :=
  { name := "v2.OCSPRequestData",
    fields :=
      [⟨"hashAlgorithm", false, false, .enum "v2.HashAlgorithmEnum"⟩,
       ⟨"issuerNameHash", false, false, .str (some 128)⟩,
       ⟨"issuerKeyHash", false, false, .str (some 128)⟩,
       ⟨"serialNumber", false, false, .str (some 40)⟩,
       ⟨"responderURL", false, false, .str (some 2000)⟩,
       ⟨"customData", true, false, .json⟩],
    toJ :=
      [⟨"hashAlgorithm", "hashAlgorithm", false, false, (.enum "v2.HashAlgorithmEnum")⟩,
       ⟨"issuerNameHash", "issuerNameHash", false, false, .plain⟩,
       ⟨"issuerKeyHash", "issuerKeyHash", false, false, .plain⟩,
       ⟨"serialNumber", "serialNumber", false, false, .plain⟩,
       ⟨"responderURL", "responderURL", false, false, .plain⟩,
       ⟨"customData", "customData", true, false, .plain⟩],
    fromJ :=
      [⟨"hashAlgorithm", "hashAlgorithm", false, false, (.enum "v2.HashAlgorithmEnum")⟩,
       ⟨"issuerNameHash", "issuerNameHash", false, false, .plain⟩,
       ⟨"issuerKeyHash", "issuerKeyHash", false, false, .plain⟩,
       ⟨"serialNumber", "serialNumber", false, false, .plain⟩,
       ⟨"responderURL", "responderURL", false, false, .plain⟩,
       ⟨"customData", "customData", true, false, .plain⟩] }

/-- `MessageContent`, include/ocpp/v2/ocpp_types.hpp l.100; `to_json`, lib/ocpp/v2/ocpp_types.cpp l.210-223; `from_json`, l.226-238. -/
def t_v2_MessageContent : TypeTable :=
  { name := "v2.MessageContent",
    fields :=
      [⟨"format", false, false, .enum "v2.MessageFormatEnum"⟩,
       ⟨"content", false, false, .str (some 1024)⟩,
       ⟨"language", true, false, .str (some 8)⟩,
       ⟨"customData", true, false, .json⟩],
    toJ :=
      [⟨"format", "format", false, false, (.enum "v2.MessageFormatEnum")⟩,
       ⟨"content", "content", false, false, .plain⟩,
       ⟨"language", "language", true, false, .plain⟩,
       ⟨"customData", "customData", true, false, .plain⟩],
    fromJ :=
      [⟨"format", "format", false, false, (.enum "v2.MessageFormatEnum")⟩,
       ⟨"content", "content", false, false, .plain⟩,
       ⟨"language", "language", true, false, .plain⟩,
       ⟨"customData", "customData", true, false, .plain⟩] }

/-- `IdTokenInfo`, include/ocpp/v2/ocpp_types.hpp l.116; `to_json`, lib/ocpp/v2/ocpp_types.cpp l.248-281; `from_json`, l.284-318. -/
def t_v2_IdTokenInfo : TypeTable :=
  { name := "v2.IdTokenInfo",
    fields :=
      [⟨"status", false, false, .enum "v2.AuthorizationStatusEnum"⟩,
       ⟨"cacheExpiryDateTime", true, false, .time⟩,
       ⟨"chargingPriority", true, false, .int⟩,
       ⟨"groupIdToken", true, false, .struct "v2.IdToken"⟩,
       ⟨"language1", true, false, .str (some 8)⟩,
       ⟨"language2", true, false, .str (some 8)⟩,
       ⟨"evseId", true, true, .int⟩,
       ⟨"personalMessage", true, false, .struct "v2.MessageContent"⟩,
       ⟨"customData", true, false, .json⟩],
    toJ :=
      [⟨"status", "status", false, false, (.enum "v2.AuthorizationStatusEnum")⟩,
       ⟨"cacheExpiryDateTime", "cacheExpiryDateTime", true, false, .time⟩,
       ⟨"chargingPriority", "chargingPriority", true, false, .plain⟩,
       ⟨"groupIdToken", "groupIdToken", true, false, .plain⟩,
       ⟨"language1", "language1", true, false, .plain⟩,
       ⟨"language2", "language2", true, false, .plain⟩,
       ⟨"evseId", "evseId", true, true, .plain⟩,
       ⟨"personalMessage", "personalMessage", true, false, .plain⟩,
       ⟨"customData", "customData", true, false, .plain⟩],
    fromJ :=
      [⟨"status", "status", false, false, (.enum "v2.AuthorizationStatusEnum")⟩,
       ⟨"cacheExpiryDateTime", "cacheExpiryDateTime", true, false, .time⟩,
       ⟨"chargingPriority", "chargingPriority", true, false, .plain⟩,
       ⟨"groupIdToken", "groupIdToken", true, false, .plain⟩,
       ⟨"language1", "language1", true, false, .plain⟩,
       ⟨"language2", "language2", true, false, .plain⟩,
       ⟨"evseId", "evseId", true, true, .plain⟩,
       ⟨"personalMessage", "personalMessage", true, false, .plain⟩,
       ⟨"customData", "customData", true, false, .plain⟩] }

/-- `TariffConditions`, include/ocpp/v2/ocpp_types.hpp l.137; `to_json`, lib/ocpp/v2/ocpp_types.cpp l.328-396; `from_json`, l.399-465. -/
def t_v2_TariffConditions : TypeTable :=
  { name := "v2.TariffConditions",
    fields :=
      [⟨"startTimeOfDay", true, false, .str none⟩,
       ⟨"endTimeOfDay", true, false, .str none⟩,
       ⟨"dayOfWeek", true, true, .enum "v2.DayOfWeekEnum"⟩,
       ⟨"validFromDate", true, false, .str none⟩,
       ⟨"validToDate", true, false, .str none⟩,
       ⟨"evseKind", true, false, .enum "v2.EvseKindEnum"⟩,
       ⟨"minEnergy", true, false, .num⟩,
       ⟨"maxEnergy", true, false, .num⟩,
       ⟨"minCurrent", true, false, .num⟩,
       ⟨"maxCurrent", true, false, .num⟩,
       ⟨"minPower", true, false, .num⟩,
       ⟨"maxPower", true, false, .num⟩,
       ⟨"minTime", true, false, .int⟩,
       ⟨"maxTime", true, false, .int⟩,
       ⟨"minChargingTime", true, false, .int⟩,
       ⟨"maxChargingTime", true, false, .int⟩,
       ⟨"minIdleTime", true, false, .int⟩,
       ⟨"maxIdleTime", true, false, .int⟩,
       ⟨"customData", true, false, .json⟩],
    toJ :=
      [⟨"startTimeOfDay", "startTimeOfDay", true, false, .plain⟩,
       ⟨"endTimeOfDay", "endTimeOfDay", true, false, .plain⟩,
       ⟨"dayOfWeek", "dayOfWeek", true, true, (.enum "v2.DayOfWeekEnum")⟩,
       ⟨"validFromDate", "validFromDate", true, false, .plain⟩,
       ⟨"validToDate", "validToDate", true, false, .plain⟩,
       ⟨"evseKind", "evseKind", true, false, (.enum "v2.EvseKindEnum")⟩,
       ⟨"minEnergy", "minEnergy", true, false, .plain⟩,
       ⟨"maxEnergy", "maxEnergy", true, false, .plain⟩,
       ⟨"minCurrent", "minCurrent", true, false, .plain⟩,
       ⟨"maxCurrent", "maxCurrent", true, false, .plain⟩,
       ⟨"minPower", "minPower", true, false, .plain⟩,
       ⟨"maxPower", "maxPower", true, false, .plain⟩,
       ⟨"minTime", "minTime", true, false, .plain⟩,
       ⟨"maxTime", "maxTime", true, false, .plain⟩,
       ⟨"minChargingTime", "minChargingTime", true, false, .plain⟩,
       ⟨"maxChargingTime", "maxChargingTime", true, false, .plain⟩,
       ⟨"minIdleTime", "minIdleTime", true, false, .plain⟩,
       ⟨"maxIdleTime", "maxIdleTime", true, false, .plain⟩,
       ⟨"customData", "customData", true, false, .plain⟩],
    fromJ :=
      [⟨"startTimeOfDay", "startTimeOfDay", true, false, .plain⟩,
       ⟨"endTimeOfDay", "endTimeOfDay", true, false, .plain⟩,
       ⟨"dayOfWeek", "dayOfWeek", true, true, (.enum "v2.DayOfWeekEnum")⟩,
       ⟨"validFromDate", "validFromDate", true, false, .plain⟩,
       ⟨"validToDate", "validToDate", true, false, .plain⟩,
       ⟨"evseKind", "evseKind", true, false, (.enum "v2.EvseKindEnum")⟩,
       ⟨"minEnergy", "minEnergy", true, false, .plain⟩,
       ⟨"maxEnergy", "maxEnergy", true, false, .plain⟩,
       ⟨"minCurrent", "minCurrent", true, false, .plain⟩,
       ⟨"maxCurrent", "maxCurrent", true, false, .plain⟩,
       ⟨"minPower", "minPower", true, false, .plain⟩,
       ⟨"maxPower", "maxPower", true, false, .plain⟩,
       ⟨"minTime", "minTime", true, false, .plain⟩,
       ⟨"maxTime", "maxTime", true, false, .plain⟩,
       ⟨"minChargingTime", "minChargingTime", true, false, .plain⟩,
       ⟨"maxChargingTime", "maxChargingTime", true, false, .plain⟩,
       ⟨"minIdleTime", "minIdleTime", true, false, .plain⟩,
       ⟨"maxIdleTime", "maxIdleTime", true, false, .plain⟩,
       ⟨"customData", "customData", true, false, .plain⟩] }

/-- `TariffEnergyPrice`, include/ocpp/v2/ocpp_types.hpp l.168; `to_json`, lib/ocpp/v2/ocpp_types.cpp l.475-487; `from_json`, l.490-501. -/
def t_v2_TariffEnergyPrice : TypeTable :=
  { name := "v2.TariffEnergyPrice",
    fields :=
      [⟨"priceKwh", false, false, .num⟩,
       ⟨"conditions", true, false, .struct "v2.TariffConditions"⟩,
       ⟨"customData", true, false, .json⟩],
    toJ :=
      [⟨"priceKwh", "priceKwh", false, false, .plain⟩,
       ⟨"conditions", "conditions", true, false, .plain⟩,
       ⟨"customData", "customData", true, false, .plain⟩],
    fromJ :=
      [⟨"priceKwh", "priceKwh", false, false, .plain⟩,
       ⟨"conditions", "conditions", true, false, .plain⟩,
       ⟨"customData", "customData", true, false, .plain⟩] }

/-- `TaxRate`, include/ocpp/v2/ocpp_types.hpp l.183; `to_json`, lib/ocpp/v2/ocpp_types.cpp l.511-524; `from_json`, l.527-539. -/
def t_v2_TaxRate : TypeTable :=
  { name := "v2.TaxRate",
    fields :=
      [⟨"type", false, false, .str (some 20)⟩,
       ⟨"tax", false, false, .num⟩,
       ⟨"stack", true, false, .int⟩,
       ⟨"customData", true, false, .json⟩],
    toJ :=
      [⟨"type", "type", false, false, .plain⟩,
       ⟨"tax", "tax", false, false, .plain⟩,
       ⟨"stack", "stack", true, false, .plain⟩,
       ⟨"customData", "customData", true, false, .plain⟩],
    fromJ :=
      [⟨"type", "type", false, false, .plain⟩,
       ⟨"tax", "tax", false, false, .plain⟩,
       ⟨"stack", "stack", true, false, .plain⟩,
       ⟨"customData", "customData", true, false, .plain⟩] }

/-- `TariffEnergy`, include/ocpp/v2/ocpp_types.hpp l.199; `to_json`, lib/ocpp/v2/ocpp_types.cpp l.549-564; `from_json`, l.567-585. -/
def t_v2_TariffEnergy : TypeTable :=
  { name := "v2.TariffEnergy",
    fields :=
      [⟨"prices", false, true, .struct "v2.TariffEnergyPrice"⟩,
       ⟨"taxRates", true, true, .struct "v2.TaxRate"⟩,
       ⟨"customData", true, false, .json⟩],
    toJ :=
      [⟨"prices", "prices", false, false, .plain⟩,
       ⟨"taxRates", "taxRates", true, true, .plain⟩,
       ⟨"customData", "customData", true, false, .plain⟩],
    fromJ :=
      [⟨"prices", "prices", false, true, .plain⟩,
       ⟨"taxRates", "taxRates", true, true, .plain⟩,
       ⟨"customData", "customData", true, false, .plain⟩] }

/-- `TariffTimePrice`, include/ocpp/v2/ocpp_types.hpp l.214; `to_json`, lib/ocpp/v2/ocpp_types.cpp l.595-607; `from_json`, l.610-621. -/
def t_v2_TariffTimePrice : TypeTable :=
  { name := "v2.TariffTimePrice",
    fields :=
      [⟨"priceMinute", false, false, .num⟩,
       ⟨"conditions", true, false, .struct "v2.TariffConditions"⟩,
       ⟨"customData", true, false, .json⟩],
    toJ :=
      [⟨"priceMinute", "priceMinute", false, false, .plain⟩,
       ⟨"conditions", "conditions", true, false, .plain⟩,
       ⟨"customData", "customData", true, false, .plain⟩],
    fromJ :=
      [⟨"priceMinute", "priceMinute", false, false, .plain⟩,
       ⟨"conditions", "conditions", true, false, .plain⟩,
       ⟨"customData", "customData", true, false, .plain⟩] }

/-- `TariffTime`, include/ocpp/v2/ocpp_types.hpp l.229; `to_json`, lib/ocpp/v2/ocpp_types.cpp l.631-646; `from_json`, l.649-667. -/
def t_v2_TariffTime : TypeTable :=
  { name := "v2.TariffTime",
    fields :=
      [⟨"prices", false, true, .struct "v2.TariffTimePrice"⟩,
       ⟨"taxRates", true, true, .struct "v2.TaxRate"⟩,
       ⟨"customData", true, false, .json⟩],
    toJ :=
      [⟨"prices", "prices", false, false, .plain⟩,
       ⟨"taxRates", "taxRates", true, true, .plain⟩,
       ⟨"customData", "customData", true, false, .plain⟩],
    fromJ :=
      [⟨"prices", "prices", false, true, .plain⟩,
       ⟨"taxRates", "taxRates", true, true, .plain⟩,
       ⟨"customData", "customData", true, false, .plain⟩] }

/-- `TariffConditionsFixed`, include/ocpp/v2/ocpp_types.hpp l.244; `to_json`, lib/ocpp/v2/ocpp_types.cpp l.677-715; `from_json`, l.718-754. -/
def t_v2_TariffConditionsFixed : TypeTable :=
  { name := "v2.TariffConditionsFixed",
    fields :=
      [⟨"startTimeOfDay", true, false, .str none⟩,
       ⟨"endTimeOfDay", true, false, .str none⟩,
       ⟨"dayOfWeek", true, true, .enum "v2.DayOfWeekEnum"⟩,
       ⟨"validFromDate", true, false, .str none⟩,
       ⟨"validToDate", true, false, .str none⟩,
       ⟨"evseKind", true, false, .enum "v2.EvseKindEnum"⟩,
       ⟨"paymentBrand", true, false, .str (some 20)⟩,
       ⟨"paymentRecognition", true, false, .str (some 20)⟩,
       ⟨"customData", true, false, .json⟩],
    toJ :=
      [⟨"startTimeOfDay", "startTimeOfDay", true, false, .plain⟩,
       ⟨"endTimeOfDay", "endTimeOfDay", true, false, .plain⟩,
       ⟨"dayOfWeek", "dayOfWeek", true, true, (.enum "v2.DayOfWeekEnum")⟩,
       ⟨"validFromDate", "validFromDate", true, false, .plain⟩,
       ⟨"validToDate", "validToDate", true, false, .plain⟩,
       ⟨"evseKind", "evseKind", true, false, (.enum "v2.EvseKindEnum")⟩,
       ⟨"paymentBrand", "paymentBrand", true, false, .plain⟩,
       ⟨"paymentRecognition", "paymentRecognition", true, false, .plain⟩,
       ⟨"customData", "customData", true, false, .plain⟩],
    fromJ :=
      [⟨"startTimeOfDay", "startTimeOfDay", true, false, .plain⟩,
       ⟨"endTimeOfDay", "endTimeOfDay", true, false, .plain⟩,
       ⟨"dayOfWeek", "dayOfWeek", true, true, (.enum "v2.DayOfWeekEnum")⟩,
       ⟨"validFromDate", "validFromDate", true, false, .plain⟩,
       ⟨"validToDate", "validToDate", true, false, .plain⟩,
       ⟨"evseKind", "evseKind", true, false, (.enum "v2.EvseKindEnum")⟩,
       ⟨"paymentBrand", "paymentBrand", true, false, .plain⟩,
       ⟨"paymentRecognition", "paymentRecognition", true, false, .plain⟩,
       ⟨"customData", "customData", true, false, .plain⟩] }

/-- `TariffFixedPrice`, include/ocpp/v2/ocpp_types.hpp l.265; `to_json`, lib/ocpp/v2/ocpp_types.cpp l.764-776; `from_json`, l.779-790. -/
def t_v2_TariffFixedPrice : TypeTable :=
  { name := "v2.TariffFixedPrice",
    fields :=
      [⟨"priceFixed", false, false, .num⟩,
       ⟨"conditions", true, false, .struct "v2.TariffConditionsFixed"⟩,
       ⟨"customData", true, false, .json⟩],
    toJ :=
      [⟨"priceFixed", "priceFixed", false, false, .plain⟩,
       ⟨"conditions", "conditions", true, false, .plain⟩,
       ⟨"customData", "customData", true, false, .plain⟩],
    fromJ :=
      [⟨"priceFixed", "priceFixed", false, false, .plain⟩,
       ⟨"conditions", "conditions", true, false, .plain⟩,
       ⟨"customData", "customData", true, false, .plain⟩] }

/-- `TariffFixed`, include/ocpp/v2/ocpp_types.hpp l.280; `to_json`, lib/ocpp/v2/ocpp_types.cpp l.800-815; `from_json`, l.818-836. -/
def t_v2_TariffFixed : TypeTable :=
  { name := "v2.TariffFixed",
    fields :=
      [⟨"prices", false, true, .struct "v2.TariffFixedPrice"⟩,
       ⟨"taxRates", true, true, .struct "v2.TaxRate"⟩,
       ⟨"customData", true, false, .json⟩],
    toJ :=
      [⟨"prices", "prices", false, false, .plain⟩,
       ⟨"taxRates", "taxRates", true, true, .plain⟩,
       ⟨"customData", "customData", true, false, .plain⟩],
    fromJ :=
      [⟨"prices", "prices", false, true, .plain⟩,
       ⟨"taxRates", "taxRates", true, true, .plain⟩,
       ⟨"customData", "customData", true, false, .plain⟩] }

/-- `Price`, include/ocpp/v2/ocpp_types.hpp l.295; `to_json`, lib/ocpp/v2/ocpp_types.cpp l.846-869; `from_json`, l.872-893. -/
def t_v2_Price : TypeTable :=
  { name := "v2.Price",
    fields :=
      [⟨"exclTax", true, false, .num⟩,
       ⟨"inclTax", true, false, .num⟩,
       ⟨"taxRates", true, true, .struct "v2.TaxRate"⟩,
       ⟨"customData", true, false, .json⟩],
    toJ :=
      [⟨"exclTax", "exclTax", true, false, .plain⟩,
       ⟨"inclTax", "inclTax", true, false, .plain⟩,
       ⟨"taxRates", "taxRates", true, true, .plain⟩,
       ⟨"customData", "customData", true, false, .plain⟩],
    fromJ :=
      [⟨"exclTax", "exclTax", true, false, .plain⟩,
       ⟨"inclTax", "inclTax", true, false, .plain⟩,
       ⟨"taxRates", "taxRates", true, true, .plain⟩,
       ⟨"customData", "customData", true, false, .plain⟩] }

/-- `Tariff`, include/ocpp/v2/ocpp_types.hpp l.311; `to_json`, lib/ocpp/v2/ocpp_types.cpp l.903-946; `from_json`, l.949-993. -/
def t_v2_Tariff : TypeTable :=
  { name := "v2.Tariff",
    fields :=
      [⟨"tariffId", false, false, .str (some 60)⟩,
       ⟨"currency", false, false, .str (some 3)⟩,
       ⟨"description", true, true, .struct "v2.MessageContent"⟩,
       ⟨"energy", true, false, .struct "v2.TariffEnergy"⟩,
       ⟨"validFrom", true, false, .time⟩,
       ⟨"chargingTime", true, false, .struct "v2.TariffTime"⟩,
       ⟨"idleTime", true, false, .struct "v2.TariffTime"⟩,
       ⟨"fixedFee", true, false, .struct "v2.TariffFixed"⟩,
       ⟨"reservationTime", true, false, .struct "v2.TariffTime"⟩,
       ⟨"reservationFixed", true, false, .struct "v2.TariffFixed"⟩,
       ⟨"minCost", true, false, .struct "v2.Price"⟩,
       ⟨"maxCost", true, false, .struct "v2.Price"⟩,
       ⟨"customData", true, false, .json⟩],
    toJ :=
      [⟨"tariffId", "tariffId", false, false, .plain⟩,
       ⟨"currency", "currency", false, false, .plain⟩,
       ⟨"description", "description", true, true, .plain⟩,
       ⟨"energy", "energy", true, false, .plain⟩,
       ⟨"validFrom", "validFrom", true, false, .time⟩,
       ⟨"chargingTime", "chargingTime", true, false, .plain⟩,
       ⟨"idleTime", "idleTime", true, false, .plain⟩,
       ⟨"fixedFee", "fixedFee", true, false, .plain⟩,
       ⟨"reservationTime", "reservationTime", true, false, .plain⟩,
       ⟨"reservationFixed", "reservationFixed", true, false, .plain⟩,
       ⟨"minCost", "minCost", true, false, .plain⟩,
       ⟨"maxCost", "maxCost", true, false, .plain⟩,
       ⟨"customData", "customData", true, false, .plain⟩],
    fromJ :=
      [⟨"tariffId", "tariffId", false, false, .plain⟩,
       ⟨"currency", "currency", false, false, .plain⟩,
       ⟨"description", "description", true, true, .plain⟩,
       ⟨"energy", "energy", true, false, .plain⟩,
       ⟨"validFrom", "validFrom", true, false, .time⟩,
       ⟨"chargingTime", "chargingTime", true, false, .plain⟩,
       ⟨"idleTime", "idleTime", true, false, .plain⟩,
       ⟨"fixedFee", "fixedFee", true, false, .plain⟩,
       ⟨"reservationTime", "reservationTime", true, false, .plain⟩,
       ⟨"reservationFixed", "reservationFixed", true, false, .plain⟩,
       ⟨"minCost", "minCost", true, false, .plain⟩,
       ⟨"maxCost", "maxCost", true, false, .plain⟩,
       ⟨"customData", "customData", true, false, .plain⟩] }

/-- `BatteryData`, include/ocpp/v2/ocpp_types.hpp l.336; `to_json`, lib/ocpp/v2/ocpp_types.cpp l.1003-1021; `from_json`, l.1024-1041. -/
def t_v2_BatteryData : TypeTable :=
  { name := "v2.BatteryData",
    fields :=
      [⟨"evseId", false, false, .int⟩,
       ⟨"serialNumber", false, false, .str (some 50)⟩,
       ⟨"soC", false, false, .num⟩,
       ⟨"soH", false, false, .num⟩,
       ⟨"productionDate", true, false, .time⟩,
       ⟨"vendorInfo", true, false, .str (some 500)⟩,
       ⟨"customData", true, false, .json⟩],
    toJ :=
      [⟨"evseId", "evseId", false, false, .plain⟩,
       ⟨"serialNumber", "serialNumber", false, false, .plain⟩,
       ⟨"soC", "soC", false, false, .plain⟩,
       ⟨"soH", "soH", false, false, .plain⟩,
       ⟨"productionDate", "productionDate", true, false, .time⟩,
       ⟨"vendorInfo", "vendorInfo", true, false, .plain⟩,
       ⟨"customData", "customData", true, false, .plain⟩],
    fromJ :=
      [⟨"evseId", "evseId", false, false, .plain⟩,
       ⟨"serialNumber", "serialNumber", false, false, .plain⟩,
       ⟨"soC", "soC", false, false, .plain⟩,
       ⟨"soH", "soH", false, false, .plain⟩,
       ⟨"productionDate", "productionDate", true, false, .time⟩,
       ⟨"vendorInfo", "vendorInfo", true, false, .plain⟩,
       ⟨"customData", "customData", true, false, .plain⟩] }

/-- `Modem`, include/ocpp/v2/ocpp_types.hpp l.355; `to_json`, lib/ocpp/v2/ocpp_types.cpp l.1051-1064; `from_json`, l.1067-1080. -/
def t_v2_Modem : TypeTable :=
  { name := "v2.Modem",
    fields :=
      [⟨"iccid", true, false, .str (some 20)⟩,
       ⟨"imsi", true, false, .str (some 20)⟩,
       ⟨"customData", true, false, .json⟩],
    toJ :=
      [⟨"iccid", "iccid", true, false, .plain⟩,
       ⟨"imsi", "imsi", true, false, .plain⟩,
       ⟨"customData", "customData", true, false, .plain⟩],
    fromJ :=
      [⟨"iccid", "iccid", true, false, .plain⟩,
       ⟨"imsi", "imsi", true, false, .plain⟩,
       ⟨"customData", "customData", true, false, .plain⟩] }

/-- `ChargingStation`, include/ocpp/v2/ocpp_types.hpp l.370; `to_json`, lib/ocpp/v2/ocpp_types.cpp l.1090-1109; `from_json`, l.1112-1130. -/
def t_v2_ChargingStation : TypeTable :=
  { name := "v2.ChargingStation",
    fields :=
      [⟨"model", false, false, .str (some 20)⟩,
       ⟨"vendorName", false, false, .str (some 50)⟩,
       ⟨"serialNumber", true, false, .str (some 25)⟩,
       ⟨"modem", true, false, .struct "v2.Modem"⟩,
       ⟨"firmwareVersion", true, false, .str (some 50)⟩,
       ⟨"customData", true, false, .json⟩],
    toJ :=
      [⟨"model", "model", false, false, .plain⟩,
       ⟨"vendorName", "vendorName", false, false, .plain⟩,
       ⟨"serialNumber", "serialNumber", true, false, .plain⟩,
       ⟨"modem", "modem", true, false, .plain⟩,
       ⟨"firmwareVersion", "firmwareVersion", true, false, .plain⟩,
       ⟨"customData", "customData", true, false, .plain⟩],
    fromJ :=
      [⟨"model", "model", false, false, .plain⟩,
       ⟨"vendorName", "vendorName", false, false, .plain⟩,
       ⟨"serialNumber", "serialNumber", true, false, .plain⟩,
       ⟨"modem", "modem", true, false, .plain⟩,
       ⟨"firmwareVersion", "firmwareVersion", true, false, .plain⟩,
       ⟨"customData", "customData", true, false, .plain⟩] }

/-- `EVSE`, include/ocpp/v2/ocpp_types.hpp l.388; `to_json`, lib/ocpp/v2/ocpp_types.cpp l.1140-1152; `from_json`, l.1155-1166. -/
def t_v2_EVSE : TypeTable :=
  { name := "v2.EVSE",
    fields :=
      [⟨"id", false, false, .int⟩,
       ⟨"connectorId", true, false, .int⟩,
       ⟨"customData", true, false, .json⟩],
    toJ :=
      [⟨"id", "id", false, false, .plain⟩,
       ⟨"connectorId", "connectorId", true, false, .plain⟩,
       ⟨"customData", "customData", true, false, .plain⟩],
    fromJ :=
      [⟨"id", "id", false, false, .plain⟩,
       ⟨"connectorId", "connectorId", true, false, .plain⟩,
       ⟨"customData", "customData", true, false, .plain⟩] }

/-- `ClearChargingProfile`, include/ocpp/v2/ocpp_types.hpp l.403; `to_json`, lib/ocpp/v2/ocpp_types.cpp l.1176-1193; `from_json`, l.1196-1213. -/
def t_v2_ClearChargingProfile : TypeTable :=
  { name := "v2.ClearChargingProfile",
    fields :=
      [⟨"evseId", true, false, .int⟩,
       ⟨"chargingProfilePurpose", true, false, .enum "v2.ChargingProfilePurposeEnum"⟩,
       ⟨"stackLevel", true, false, .int⟩,
       ⟨"customData", true, false, .json⟩],
    toJ :=
      [⟨"evseId", "evseId", true, false, .plain⟩,
       ⟨"chargingProfilePurpose", "chargingProfilePurpose", true, false, (.enum "v2.ChargingProfilePurposeEnum")⟩,
       ⟨"stackLevel", "stackLevel", true, false, .plain⟩,
       ⟨"customData", "customData", true, false, .plain⟩],
    fromJ :=
      [⟨"evseId", "evseId", true, false, .plain⟩,
       ⟨"chargingProfilePurpose", "chargingProfilePurpose", true, false, (.enum "v2.ChargingProfilePurposeEnum")⟩,
       ⟨"stackLevel", "stackLevel", true, false, .plain⟩,
       ⟨"customData", "customData", true, false, .plain⟩] }

/-- `ClearTariffsResult`, include/ocpp/v2/ocpp_types.hpp l.419; `to_json`, lib/ocpp/v2/ocpp_types.cpp l.1223-1238; `from_json`, l.1241-1255. -/
def t_v2_ClearTariffsResult : TypeTable :=
  { name := "v2.ClearTariffsResult",
    fields :=
      [⟨"status", false, false, .enum "v2.TariffClearStatusEnum"⟩,
       ⟨"statusInfo", true, false, .struct "v2.StatusInfo"⟩,
       ⟨"tariffId", true, false, .str (some 60)⟩,
       ⟨"customData", true, false, .json⟩],
    toJ :=
      [⟨"status", "status", false, false, (.enum "v2.TariffClearStatusEnum")⟩,
       ⟨"statusInfo", "statusInfo", true, false, .plain⟩,
       ⟨"tariffId", "tariffId", true, false, .plain⟩,
       ⟨"customData", "customData", true, false, .plain⟩],
    fromJ :=
      [⟨"status", "status", false, false, (.enum "v2.TariffClearStatusEnum")⟩,
       ⟨"statusInfo", "statusInfo", true, false, .plain⟩,
       ⟨"tariffId", "tariffId", true, false, .plain⟩,
       ⟨"customData", "customData", true, false, .plain⟩] }

/-- `ClearMonitoringResult`, include/ocpp/v2/ocpp_types.hpp l.435; `to_json`, lib/ocpp/v2/ocpp_types.cpp l.1265-1278; `from_json`, l.1281-1293. -/
def t_v2_ClearMonitoringResult : TypeTable :=
  { name := "v2.ClearMonitoringResult",
    fields :=
      [⟨"status", false, false, .enum "v2.ClearMonitoringStatusEnum"⟩,
       ⟨"id", false, false, .int⟩,
       ⟨"statusInfo", true, false, .struct "v2.StatusInfo"⟩,
       ⟨"customData", true, false, .json⟩],
    toJ :=
      [⟨"status", "status", false, false, (.enum "v2.ClearMonitoringStatusEnum")⟩,
       ⟨"id", "id", false, false, .plain⟩,
       ⟨"statusInfo", "statusInfo", true, false, .plain⟩,
       ⟨"customData", "customData", true, false, .plain⟩],
    fromJ :=
      [⟨"status", "status", false, false, (.enum "v2.ClearMonitoringStatusEnum")⟩,
       ⟨"id", "id", false, false, .plain⟩,
       ⟨"statusInfo", "statusInfo", true, false, .plain⟩,
       ⟨"customData", "customData", true, false, .plain⟩] }

/-- `CertificateHashDataType`, include/ocpp/v2/ocpp_types.hpp l.451; `to_json`, lib/ocpp/v2/ocpp_types.cpp l.1303-1315; `from_json`, l.1318-1329. -/
def t_v2_CertificateHashDataType : TypeTable :=
  { name := "v2.CertificateHashDataType",
    fields :=
      [⟨"hashAlgorithm", false, false, .enum "v2.HashAlgorithmEnum"⟩,
       ⟨"issuerNameHash", false, false, .str (some 128)⟩,
       ⟨"issuerKeyHash", false, false, .str (some 128)⟩,
       ⟨"serialNumber", false, false, .str (some 40)⟩,
       ⟨"customData", true, false, .json⟩],
    toJ :=
      [⟨"hashAlgorithm", "hashAlgorithm", false, false, (.enum "v2.HashAlgorithmEnum")⟩,
       ⟨"issuerNameHash", "issuerNameHash", false, false, .plain⟩,
       ⟨"issuerKeyHash", "issuerKeyHash", false, false, .plain⟩,
       ⟨"serialNumber", "serialNumber", false, false, .plain⟩,
       ⟨"customData", "customData", true, false, .plain⟩],
    fromJ :=
      [⟨"hashAlgorithm", "hashAlgorithm", false, false, (.enum "v2.HashAlgorithmEnum")⟩,
       ⟨"issuerNameHash", "issuerNameHash", false, false, .plain⟩,
       ⟨"issuerKeyHash", "issuerKeyHash", false, false, .plain⟩,
       ⟨"serialNumber", "serialNumber", false, false, .plain⟩,
       ⟨"customData", "customData", true, false, .plain⟩] }

/-- `CertificateStatusRequestInfo`, include/ocpp/v2/ocpp_types.hpp l.468; `to_json`, lib/ocpp/v2/ocpp_types.cpp l.1339-1350; `from_json`, l.1353-1365. -/
def t_v2_CertificateStatusRequestInfo : TypeTable :=
  { name := "v2.CertificateStatusRequestInfo",
    fields :=
      [⟨"certificateHashData", false, false, .struct "v2.CertificateHashDataType"⟩,
       ⟨"source", false, false, .enum "v2.CertificateStatusSourceEnum"⟩,
       ⟨"urls", false, true, .str (some 2000)⟩,
       ⟨"customData", true, false, .json⟩],
    toJ :=
      [⟨"certificateHashData", "certificateHashData", false, false, .plain⟩,
       ⟨"source", "source", false, false, (.enum "v2.CertificateStatusSourceEnum")⟩,
       ⟨"urls", "urls", false, false, .plain⟩,
       ⟨"customData", "customData", true, false, .plain⟩],
    fromJ :=
      [⟨"certificateHashData", "certificateHashData", false, false, .plain⟩,
       ⟨"source", "source", false, false, (.enum "v2.CertificateStatusSourceEnum")⟩,
       ⟨"urls", "urls", false, true, .plain⟩,
       ⟨"customData", "customData", true, false, .plain⟩] }

/-- `CertificateStatus`, include/ocpp/v2/ocpp_types.hpp l.485; `to_json`, lib/ocpp/v2/ocpp_types.cpp l.1376-1388; `from_json`, l.1391-1402. -/
def t_v2_CertificateStatus : TypeTable :=
  { name := "v2.CertificateStatus",
    fields :=
      [⟨"certificateHashData", false, false, .struct "v2.CertificateHashDataType"⟩,
       ⟨"source", false, false, .enum "v2.CertificateStatusSourceEnum"⟩,
       ⟨"status", false, false, .enum "v2.CertificateStatusEnum"⟩,
       ⟨"nextUpdate", false, false, .time⟩,
       ⟨"customData", true, false, .json⟩],
    toJ :=
      [⟨"certificateHashData", "certificateHashData", false, false, .plain⟩,
       ⟨"source", "source", false, false, (.enum "v2.CertificateStatusSourceEnum")⟩,
       ⟨"status", "status", false, false, (.enum "v2.CertificateStatusEnum")⟩,
       ⟨"nextUpdate", "nextUpdate", false, false, .time⟩,
       ⟨"customData", "customData", true, false, .plain⟩],
    fromJ :=
      [⟨"certificateHashData", "certificateHashData", false, false, .plain⟩,
       ⟨"source", "source", false, false, (.enum "v2.CertificateStatusSourceEnum")⟩,
       ⟨"status", "status", false, false, (.enum "v2.CertificateStatusEnum")⟩,
       ⟨"nextUpdate", "nextUpdate", false, false, .time⟩,
       ⟨"customData", "customData", true, false, .plain⟩] }

/-- `ChargingProfileCriterion`, include/ocpp/v2/ocpp_types.hpp l.502; `to_json`, lib/ocpp/v2/ocpp_types.cpp l.1412-1446; `from_json`, l.1449-1479. -/
def t_v2_ChargingProfileCriterion : TypeTable :=
  { name := "v2.ChargingProfileCriterion",
    fields :=
      [⟨"chargingProfilePurpose", true, false, .enum "v2.ChargingProfilePurposeEnum"⟩,
       ⟨"stackLevel", true, false, .int⟩,
       ⟨"chargingProfileId", true, true, .int⟩,
       ⟨"chargingLimitSource", true, true, .str (some 20)⟩,
       ⟨"customData", true, false, .json⟩],
    toJ :=
      [⟨"chargingProfilePurpose", "chargingProfilePurpose", true, false, (.enum "v2.ChargingProfilePurposeEnum")⟩,
       ⟨"stackLevel", "stackLevel", true, false, .plain⟩,
       ⟨"chargingProfileId", "chargingProfileId", true, true, .plain⟩,
       ⟨"chargingLimitSource", "chargingLimitSource", true, true, .plain⟩,
       ⟨"customData", "customData", true, false, .plain⟩],
    fromJ :=
      [⟨"chargingProfilePurpose", "chargingProfilePurpose", true, false, (.enum "v2.ChargingProfilePurposeEnum")⟩,
       ⟨"stackLevel", "stackLevel", true, false, .plain⟩,
       ⟨"chargingProfileId", "chargingProfileId", true, true, .plain⟩,
       ⟨"chargingLimitSource", "chargingLimitSource", true, true, .plain⟩,
       ⟨"customData", "customData", true, false, .plain⟩] }

/-- `V2XFreqWattPoint`, include/ocpp/v2/ocpp_types.hpp l.519; `to_json`, lib/ocpp/v2/ocpp_types.cpp l.1489-1499; `from_json`, l.1502-1511. -/
def t_v2_V2XFreqWattPoint : TypeTable :=
  { name := "v2.V2XFreqWattPoint",
    fields :=
      [⟨"frequency", false, false, .num⟩,
       ⟨"power", false, false, .num⟩,
       ⟨"customData", true, false, .json⟩],
    toJ :=
      [⟨"frequency", "frequency", false, false, .plain⟩,
       ⟨"power", "power", false, false, .plain⟩,
       ⟨"customData", "customData", true, false, .plain⟩],
    fromJ :=
      [⟨"frequency", "frequency", false, false, .plain⟩,
       ⟨"power", "power", false, false, .plain⟩,
       ⟨"customData", "customData", true, false, .plain⟩] }

/-- `V2XSignalWattPoint`, include/ocpp/v2/ocpp_types.hpp l.534; `to_json`, lib/ocpp/v2/ocpp_types.cpp l.1521-1531; `from_json`, l.1534-1543. -/
def t_v2_V2XSignalWattPoint : TypeTable :=
  { name := "v2.V2XSignalWattPoint",
    fields :=
      [⟨"signal", false, false, .int⟩,
       ⟨"power", false, false, .num⟩,
       ⟨"customData", true, false, .json⟩],
    toJ :=
      [⟨"signal", "signal", false, false, .plain⟩,
       ⟨"power", "power", false, false, .plain⟩,
       ⟨"customData", "customData", true, false, .plain⟩],
    fromJ :=
      [⟨"signal", "signal", false, false, .plain⟩,
       ⟨"power", "power", false, false, .plain⟩,
       ⟨"customData", "customData", true, false, .plain⟩] }

/-- `ChargingSchedulePeriod`, include/ocpp/v2/ocpp_types.hpp l.549; `to_json`, lib/ocpp/v2/ocpp_types.cpp l.1553-1628; `from_json`, l.1631-1709. -/
def t_v2_ChargingSchedulePeriod : TypeTable :=
  { name := "v2.ChargingSchedulePeriod",
    fields :=
      [⟨"startPeriod", false, false, .int⟩,
       ⟨"limit", true, false, .num⟩,
       ⟨"limit_L2", true, false, .num⟩,
       ⟨"limit_L3", true, false, .num⟩,
       ⟨"numberPhases", true, false, .int⟩,
       ⟨"phaseToUse", true, false, .int⟩,
       ⟨"dischargeLimit", true, false, .num⟩,
       ⟨"dischargeLimit_L2", true, false, .num⟩,
       ⟨"dischargeLimit_L3", true, false, .num⟩,
       ⟨"setpoint", true, false, .num⟩,
       ⟨"setpoint_L2", true, false, .num⟩,
       ⟨"setpoint_L3", true, false, .num⟩,
       ⟨"setpointReactive", true, false, .num⟩,
       ⟨"setpointReactive_L2", true, false, .num⟩,
       ⟨"setpointReactive_L3", true, false, .num⟩,
       ⟨"preconditioningRequest", true, false, .bool⟩,
       ⟨"evseSleep", true, false, .bool⟩,
       ⟨"v2xBaseline", true, false, .num⟩,
       ⟨"operationMode", true, false, .enum "v2.OperationModeEnum"⟩,
       ⟨"v2xFreqWattCurve", true, true, .struct "v2.V2XFreqWattPoint"⟩,
       ⟨"v2xSignalWattCurve", true, true, .struct "v2.V2XSignalWattPoint"⟩,
       ⟨"customData", true, false, .json⟩],
    toJ :=
      [⟨"startPeriod", "startPeriod", false, false, .plain⟩,
       ⟨"limit", "limit", true, false, .plain⟩,
       ⟨"limit_L2", "limit_L2", true, false, .plain⟩,
       ⟨"limit_L3", "limit_L3", true, false, .plain⟩,
       ⟨"numberPhases", "numberPhases", true, false, .plain⟩,
       ⟨"phaseToUse", "phaseToUse", true, false, .plain⟩,
       ⟨"dischargeLimit", "dischargeLimit", true, false, .plain⟩,
       ⟨"dischargeLimit_L2", "dischargeLimit_L2", true, false, .plain⟩,
       ⟨"dischargeLimit_L3", "dischargeLimit_L3", true, false, .plain⟩,
       ⟨"setpoint", "setpoint", true, false, .plain⟩,
       ⟨"setpoint_L2", "setpoint_L2", true, false, .plain⟩,
       ⟨"setpoint_L3", "setpoint_L3", true, false, .plain⟩,
       ⟨"setpointReactive", "setpointReactive", true, false, .plain⟩,
       ⟨"setpointReactive_L2", "setpointReactive_L2", true, false, .plain⟩,
       ⟨"setpointReactive_L3", "setpointReactive_L3", true, false, .plain⟩,
       ⟨"preconditioningRequest", "preconditioningRequest", true, false, .plain⟩,
       ⟨"evseSleep", "evseSleep", true, false, .plain⟩,
       ⟨"v2xBaseline", "v2xBaseline", true, false, .plain⟩,
       ⟨"operationMode", "operationMode", true, false, (.enum "v2.OperationModeEnum")⟩,
       ⟨"v2xFreqWattCurve", "v2xFreqWattCurve", true, true, .plain⟩,
       ⟨"v2xSignalWattCurve", "v2xSignalWattCurve", true, true, .plain⟩,
       ⟨"customData", "customData", true, false, .plain⟩],
    fromJ :=
      [⟨"startPeriod", "startPeriod", false, false, .plain⟩,
       ⟨"limit", "limit", true, false, .plain⟩,
       ⟨"limit_L2", "limit_L2", true, false, .plain⟩,
       ⟨"limit_L3", "limit_L3", true, false, .plain⟩,
       ⟨"numberPhases", "numberPhases", true, false, .plain⟩,
       ⟨"phaseToUse", "phaseToUse", true, false, .plain⟩,
       ⟨"dischargeLimit", "dischargeLimit", true, false, .plain⟩,
       ⟨"dischargeLimit_L2", "dischargeLimit_L2", true, false, .plain⟩,
       ⟨"dischargeLimit_L3", "dischargeLimit_L3", true, false, .plain⟩,
       ⟨"setpoint", "setpoint", true, false, .plain⟩,
       ⟨"setpoint_L2", "setpoint_L2", true, false, .plain⟩,
       ⟨"setpoint_L3", "setpoint_L3", true, false, .plain⟩,
       ⟨"setpointReactive", "setpointReactive", true, false, .plain⟩,
       ⟨"setpointReactive_L2", "setpointReactive_L2", true, false, .plain⟩,
       ⟨"setpointReactive_L3", "setpointReactive_L3", true, false, .plain⟩,
       ⟨"preconditioningRequest", "preconditioningRequest", true, false, .plain⟩,
       ⟨"evseSleep", "evseSleep", true, false, .plain⟩,
       ⟨"v2xBaseline", "v2xBaseline", true, false, .plain⟩,
       ⟨"operationMode", "operationMode", true, false, (.enum "v2.OperationModeEnum")⟩,
       ⟨"v2xFreqWattCurve", "v2xFreqWattCurve", true, true, .plain⟩,
       ⟨"v2xSignalWattCurve", "v2xSignalWattCurve", true, true, .plain⟩,
       ⟨"customData", "customData", true, false, .plain⟩] }

/-- `CompositeSchedule`, include/ocpp/v2/ocpp_types.hpp l.583; `to_json`, lib/ocpp/v2/ocpp_types.cpp l.1719-1732; `from_json`, l.1735-1749. -/
def t_v2_CompositeSchedule : TypeTable :=
  { name := "v2.CompositeSchedule",
    fields :=
      [⟨"evseId", false, false, .int⟩,
       ⟨"duration", false, false, .int⟩,
       ⟨"scheduleStart", false, false, .time⟩,
       ⟨"chargingRateUnit", false, false, .enum "v2.ChargingRateUnitEnum"⟩,
       ⟨"chargingSchedulePeriod", false, true, .struct "v2.ChargingSchedulePeriod"⟩,
       ⟨"customData", true, false, .json⟩],
    toJ :=
      [⟨"evseId", "evseId", false, false, .plain⟩,
       ⟨"duration", "duration", false, false, .plain⟩,
       ⟨"scheduleStart", "scheduleStart", false, false, .time⟩,
       ⟨"chargingRateUnit", "chargingRateUnit", false, false, (.enum "v2.ChargingRateUnitEnum")⟩,
       ⟨"chargingSchedulePeriod", "chargingSchedulePeriod", false, false, .plain⟩,
       ⟨"customData", "customData", true, false, .plain⟩],
    fromJ :=
      [⟨"evseId", "evseId", false, false, .plain⟩,
       ⟨"duration", "duration", false, false, .plain⟩,
       ⟨"scheduleStart", "scheduleStart", false, false, .time⟩,
       ⟨"chargingRateUnit", "chargingRateUnit", false, false, (.enum "v2.ChargingRateUnitEnum")⟩,
       ⟨"chargingSchedulePeriod", "chargingSchedulePeriod", false, true, .plain⟩,
       ⟨"customData", "customData", true, false, .plain⟩] }

/-- `CertificateHashDataChain`, include/ocpp/v2/ocpp_types.hpp l.601; `to_json`, lib/ocpp/v2/ocpp_types.cpp l.1759-1775; `from_json`, l.1778-1795. -/
def t_v2_CertificateHashDataChain : TypeTable :=
  { name := "v2.CertificateHashDataChain",
    fields :=
      [⟨"certificateHashData", false, false, .struct "v2.CertificateHashDataType"⟩,
       ⟨"certificateType", false, false, .enum "v2.GetCertificateIdUseEnum"⟩,
       ⟨"childCertificateHashData", true, true, .struct "v2.CertificateHashDataType"⟩,
       ⟨"customData", true, false, .json⟩],
    toJ :=
      [⟨"certificateHashData", "certificateHashData", false, false, .plain⟩,
       ⟨"certificateType", "certificateType", false, false, (.enum "v2.GetCertificateIdUseEnum")⟩,
       ⟨"childCertificateHashData", "childCertificateHashData", true, true, .plain⟩,
       ⟨"customData", "customData", true, false, .plain⟩],
    fromJ :=
      [⟨"certificateHashData", "certificateHashData", false, false, .plain⟩,
       ⟨"certificateType", "certificateType", false, false, (.enum "v2.GetCertificateIdUseEnum")⟩,
       ⟨"childCertificateHashData", "childCertificateHashData", true, true, .plain⟩,
       ⟨"customData", "customData", true, false, .plain⟩] }

/-- `LogParameters`, include/ocpp/v2/ocpp_types.hpp l.617; `to_json`, lib/ocpp/v2/ocpp_types.cpp l.1805-1820; `from_json`, l.1823-1837. -/
def t_v2_LogParameters : TypeTable :=
  { name := "v2.LogParameters",
    fields :=
      [⟨"remoteLocation", false, false, .str (some 2000)⟩,
       ⟨"oldestTimestamp", true, false, .time⟩,
       ⟨"latestTimestamp", true, false, .time⟩,
       ⟨"customData", true, false, .json⟩],
    toJ :=
      [⟨"remoteLocation", "remoteLocation", false, false, .plain⟩,
       ⟨"oldestTimestamp", "oldestTimestamp", true, false, .time⟩,
       ⟨"latestTimestamp", "latestTimestamp", true, false, .time⟩,
       ⟨"customData", "customData", true, false, .plain⟩],
    fromJ :=
      [⟨"remoteLocation", "remoteLocation", false, false, .plain⟩,
       ⟨"oldestTimestamp", "oldestTimestamp", true, false, .time⟩,
       ⟨"latestTimestamp", "latestTimestamp", true, false, .time⟩,
       ⟨"customData", "customData", true, false, .plain⟩] }

/-- `Component`, include/ocpp/v2/ocpp_types.hpp l.633; `to_json`, lib/ocpp/v2/ocpp_types.cpp l.1847-1862; `from_json`, l.1865-1879. -/
def t_v2_Component : TypeTable :=
  { name := "v2.Component",
    fields :=
      [⟨"name", false, false, .str (some 50)⟩,
       ⟨"evse", true, false, .struct "v2.EVSE"⟩,
       ⟨"instance", true, false, .str (some 50)⟩,
       ⟨"customData", true, false, .json⟩],
    toJ :=
      [⟨"name", "name", false, false, .plain⟩,
       ⟨"evse", "evse", true, false, .plain⟩,
       ⟨"instance", "instance", true, false, .plain⟩,
       ⟨"customData", "customData", true, false, .plain⟩],
    fromJ :=
      [⟨"name", "name", false, false, .plain⟩,
       ⟨"evse", "evse", true, false, .plain⟩,
       ⟨"instance", "instance", true, false, .plain⟩,
       ⟨"customData", "customData", true, false, .plain⟩] }

/-- `Variable`, include/ocpp/v2/ocpp_types.hpp l.649; `to_json`, lib/ocpp/v2/ocpp_types.cpp l.1889-1901; `from_json`, l.1904-1915. -/
def t_v2_Variable : TypeTable :=
  { name := "v2.Variable",
    fields :=
      [⟨"name", false, false, .str (some 50)⟩,
       ⟨"instance", true, false, .str (some 50)⟩,
       ⟨"customData", true, false, .json⟩],
    toJ :=
      [⟨"name", "name", false, false, .plain⟩,
       ⟨"instance", "instance", true, false, .plain⟩,
       ⟨"customData", "customData", true, false, .plain⟩],
    fromJ :=
      [⟨"name", "name", false, false, .plain⟩,
       ⟨"instance", "instance", true, false, .plain⟩,
       ⟨"customData", "customData", true, false, .plain⟩] }

/-- `ComponentVariable`, include/ocpp/v2/ocpp_types.hpp l.664; `to_json`, lib/ocpp/v2/ocpp_types.cpp l.1925-1937; `from_json`, l.1940-1951. -/
def t_v2_ComponentVariable : TypeTable :=
  { name := "v2.ComponentVariable",
    fields :=
      [⟨"component", false, false, .struct "v2.Component"⟩,
       ⟨"variable", true, false, .struct "v2.Variable"⟩,
       ⟨"customData", true, false, .json⟩],
    toJ :=
      [⟨"component", "component", false, false, .plain⟩,
       ⟨"variable", "variable", true, false, .plain⟩,
       ⟨"customData", "customData", true, false, .plain⟩],
    fromJ :=
      [⟨"component", "component", false, false, .plain⟩,
       ⟨"variable", "variable", true, false, .plain⟩,
       ⟨"customData", "customData", true, false, .plain⟩] }

/-- `ConstantStreamData`, include/ocpp/v2/ocpp_types.hpp l.679; `to_json`, lib/ocpp/v2/ocpp_types.cpp l.1961-1972; `from_json`, l.1975-1985. -/
def t_v2_ConstantStreamData : TypeTable :=
  { name := "v2.ConstantStreamData",
    fields :=
      [⟨"id", false, false, .int⟩,
       ⟨"params", false, false, .struct "v2.PeriodicEventStreamParams"⟩,
       ⟨"variableMonitoringId", false, false, .int⟩,
       ⟨"customData", true, false, .json⟩],
    toJ :=
      [⟨"id", "id", false, false, .plain⟩,
       ⟨"params", "params", false, false, .plain⟩,
       ⟨"variableMonitoringId", "variableMonitoringId", false, false, .plain⟩,
       ⟨"customData", "customData", true, false, .plain⟩],
    fromJ :=
      [⟨"id", "id", false, false, .plain⟩,
       ⟨"params", "params", false, false, .plain⟩,
       ⟨"variableMonitoringId", "variableMonitoringId", false, false, .plain⟩,
       ⟨"customData", "customData", true, false, .plain⟩] }

/-- `TariffAssignment`, include/ocpp/v2/ocpp_types.hpp l.695; `to_json`, lib/ocpp/v2/ocpp_types.cpp l.1995-2020; `from_json`, l.2023-2051. -/
def t_v2_TariffAssignment : TypeTable :=
  { name := "v2.TariffAssignment",
    fields :=
      [⟨"tariffId", false, false, .str (some 60)⟩,
       ⟨"tariffKind", false, false, .enum "v2.TariffKindEnum"⟩,
       ⟨"validFrom", true, false, .time⟩,
       ⟨"evseIds", true, true, .int⟩,
       ⟨"idTokens", true, true, .str (some 255)⟩,
       ⟨"customData", true, false, .json⟩],
    toJ :=
      [⟨"tariffId", "tariffId", false, false, .plain⟩,
       ⟨"tariffKind", "tariffKind", false, false, (.enum "v2.TariffKindEnum")⟩,
       ⟨"validFrom", "validFrom", true, false, .time⟩,
       ⟨"evseIds", "evseIds", true, true, .plain⟩,
       ⟨"idTokens", "idTokens", true, true, .plain⟩,
       ⟨"customData", "customData", true, false, .plain⟩],
    fromJ :=
      [⟨"tariffId", "tariffId", false, false, .plain⟩,
       ⟨"tariffKind", "tariffKind", false, false, (.enum "v2.TariffKindEnum")⟩,
       ⟨"validFrom", "validFrom", true, false, .time⟩,
       ⟨"evseIds", "evseIds", true, true, .plain⟩,
       ⟨"idTokens", "idTokens", true, true, .plain⟩,
       ⟨"customData", "customData", true, false, .plain⟩] }

/-- `GetVariableData`, include/ocpp/v2/ocpp_types.hpp l.713; `to_json`, lib/ocpp/v2/ocpp_types.cpp l.2061-2074; `from_json`, l.2077-2089. -/
def t_v2_GetVariableData : TypeTable :=
  { name := "v2.GetVariableData",
    fields :=
      [⟨"component", false, false, .struct "v2.Component"⟩,
       ⟨"variable", false, false, .struct "v2.Variable"⟩,
       ⟨"attributeType", true, false, .enum "v2.AttributeEnum"⟩,
       ⟨"customData", true, false, .json⟩],
    toJ :=
      [⟨"component", "component", false, false, .plain⟩,
       ⟨"variable", "variable", false, false, .plain⟩,
       ⟨"attributeType", "attributeType", true, false, (.enum "v2.AttributeEnum")⟩,
       ⟨"customData", "customData", true, false, .plain⟩],
    fromJ :=
      [⟨"component", "component", false, false, .plain⟩,
       ⟨"variable", "variable", false, false, .plain⟩,
       ⟨"attributeType", "attributeType", true, false, (.enum "v2.AttributeEnum")⟩,
       ⟨"customData", "customData", true, false, .plain⟩] }

/-- `GetVariableResult`, include/ocpp/v2/ocpp_types.hpp l.729; `to_json`, lib/ocpp/v2/ocpp_types.cpp l.2099-2119; `from_json`, l.2122-2141. -/
def t_v2_GetVariableResult : TypeTable :=
  { name := "v2.GetVariableResult",
    fields :=
      [⟨"attributeStatus", false, false, .enum "v2.GetVariableStatusEnum"⟩,
       ⟨"component", false, false, .struct "v2.Component"⟩,
       ⟨"variable", false, false, .struct "v2.Variable"⟩,
       ⟨"attributeStatusInfo", true, false, .struct "v2.StatusInfo"⟩,
       ⟨"attributeType", true, false, .enum "v2.AttributeEnum"⟩,
       ⟨"attributeValue", true, false, .str (some 2500)⟩,
       ⟨"customData", true, false, .json⟩],
    toJ :=
      [⟨"attributeStatus", "attributeStatus", false, false, (.enum "v2.GetVariableStatusEnum")⟩,
       ⟨"component", "component", false, false, .plain⟩,
       ⟨"variable", "variable", false, false, .plain⟩,
       ⟨"attributeStatusInfo", "attributeStatusInfo", true, false, .plain⟩,
       ⟨"attributeType", "attributeType", true, false, (.enum "v2.AttributeEnum")⟩,
       ⟨"attributeValue", "attributeValue", true, false, .plain⟩,
       ⟨"customData", "customData", true, false, .plain⟩],
    fromJ :=
      [⟨"attributeStatus", "attributeStatus", false, false, (.enum "v2.GetVariableStatusEnum")⟩,
       ⟨"component", "component", false, false, .plain⟩,
       ⟨"variable", "variable", false, false, .plain⟩,
       ⟨"attributeStatusInfo", "attributeStatusInfo", true, false, .plain⟩,
       ⟨"attributeType", "attributeType", true, false, (.enum "v2.AttributeEnum")⟩,
       ⟨"attributeValue", "attributeValue", true, false, .plain⟩,
       ⟨"customData", "customData", true, false, .plain⟩] }

/-- `SignedMeterValue`, include/ocpp/v2/ocpp_types.hpp l.748; `to_json`, lib/ocpp/v2/ocpp_types.cpp l.2151-2167; `from_json`, l.2170-2185. -/
def t_v2_SignedMeterValue : TypeTable :=
  { name := "v2.SignedMeterValue",
    fields :=
      [⟨"signedMeterData", false, false, .str (some 32768)⟩,
       ⟨"encodingMethod", false, false, .str (some 50)⟩,
       ⟨"signingMethod", true, false, .str (some 50)⟩,
       ⟨"publicKey", true, false, .str (some 2500)⟩,
       ⟨"customData", true, false, .json⟩],
    toJ :=
      [⟨"signedMeterData", "signedMeterData", false, false, .plain⟩,
       ⟨"encodingMethod", "encodingMethod", false, false, .plain⟩,
       ⟨"signingMethod", "signingMethod", true, false, .plain⟩,
       ⟨"publicKey", "publicKey", true, false, .plain⟩,
       ⟨"customData", "customData", true, false, .plain⟩],
    fromJ :=
      [⟨"signedMeterData", "signedMeterData", false, false, .plain⟩,
       ⟨"encodingMethod", "encodingMethod", false, false, .plain⟩,
       ⟨"signingMethod", "signingMethod", true, false, .plain⟩,
       ⟨"publicKey", "publicKey", true, false, .plain⟩,
       ⟨"customData", "customData", true, false, .plain⟩] }

/-- `UnitOfMeasure`, include/ocpp/v2/ocpp_types.hpp l.765; `to_json`, lib/ocpp/v2/ocpp_types.cpp l.2195-2208; `from_json`, l.2211-2224. -/
def t_v2_UnitOfMeasure : TypeTable :=
  { name := "v2.UnitOfMeasure",
    fields :=
      [⟨"unit", true, false, .str (some 20)⟩,
       ⟨"multiplier", true, false, .int⟩,
       ⟨"customData", true, false, .json⟩],
    toJ :=
      [⟨"unit", "unit", true, false, .plain⟩,
       ⟨"multiplier", "multiplier", true, false, .plain⟩,
       ⟨"customData", "customData", true, false, .plain⟩],
    fromJ :=
      [⟨"unit", "unit", true, false, .plain⟩,
       ⟨"multiplier", "multiplier", true, false, .plain⟩,
       ⟨"customData", "customData", true, false, .plain⟩] }

/-- `SampledValue`, include/ocpp/v2/ocpp_types.hpp l.780; `to_json`, lib/ocpp/v2/ocpp_types.cpp l.2234-2261; `from_json`, l.2264-2290. -/
def t_v2_SampledValue : TypeTable :=
  { name := "v2.SampledValue",
    fields :=
      [⟨"value", false, false, .num⟩,
       ⟨"measurand", true, false, .enum "v2.MeasurandEnum"⟩,
       ⟨"context", true, false, .enum "v2.ReadingContextEnum"⟩,
       ⟨"phase", true, false, .enum "v2.PhaseEnum"⟩,
       ⟨"location", true, false, .enum "v2.LocationEnum"⟩,
       ⟨"signedMeterValue", true, false, .struct "v2.SignedMeterValue"⟩,
       ⟨"unitOfMeasure", true, false, .struct "v2.UnitOfMeasure"⟩,
       ⟨"customData", true, false, .json⟩],
    toJ :=
      [⟨"value", "value", false, false, .plain⟩,
       ⟨"measurand", "measurand", true, false, (.enum "v2.MeasurandEnum")⟩,
       ⟨"context", "context", true, false, (.enum "v2.ReadingContextEnum")⟩,
       ⟨"phase", "phase", true, false, (.enum "v2.PhaseEnum")⟩,
       ⟨"location", "location", true, false, (.enum "v2.LocationEnum")⟩,
       ⟨"signedMeterValue", "signedMeterValue", true, false, .plain⟩,
       ⟨"unitOfMeasure", "unitOfMeasure", true, false, .plain⟩,
       ⟨"customData", "customData", true, false, .plain⟩],
    fromJ :=
      [⟨"value", "value", false, false, .plain⟩,
       ⟨"measurand", "measurand", true, false, (.enum "v2.MeasurandEnum")⟩,
       ⟨"context", "context", true, false, (.enum "v2.ReadingContextEnum")⟩,
       ⟨"phase", "phase", true, false, (.enum "v2.PhaseEnum")⟩,
       ⟨"location", "location", true, false, (.enum "v2.LocationEnum")⟩,
       ⟨"signedMeterValue", "signedMeterValue", true, false, .plain⟩,
       ⟨"unitOfMeasure", "unitOfMeasure", true, false, .plain⟩,
       ⟨"customData", "customData", true, false, .plain⟩] }

/-- `MeterValue`, include/ocpp/v2/ocpp_types.hpp l.800; `to_json`, lib/ocpp/v2/ocpp_types.cpp l.2300-2310; `from_json`, l.2313-2324. -/
def t_v2_MeterValue : TypeTable :=
  { name := "v2.MeterValue",
    fields :=
      [⟨"sampledValue", false, true, .struct "v2.SampledValue"⟩,
       ⟨"timestamp", false, false, .time⟩,
       ⟨"customData", true, false, .json⟩],
    toJ :=
      [⟨"sampledValue", "sampledValue", false, false, .plain⟩,
       ⟨"timestamp", "timestamp", false, false, .time⟩,
       ⟨"customData", "customData", true, false, .plain⟩],
    fromJ :=
      [⟨"sampledValue", "sampledValue", false, true, .plain⟩,
       ⟨"timestamp", "timestamp", false, false, .time⟩,
       ⟨"customData", "customData", true, false, .plain⟩] }

/-- `LimitAtSoC`, include/ocpp/v2/ocpp_types.hpp l.815; `to_json`, lib/ocpp/v2/ocpp_types.cpp l.2334-2344; `from_json`, l.2347-2356. -/
def t_v2_LimitAtSoC : TypeTable :=
  { name := "v2.LimitAtSoC",
    fields :=
      [⟨"soc", false, false, .int⟩,
       ⟨"limit", false, false, .num⟩,
       ⟨"customData", true, false, .json⟩],
    toJ :=
      [⟨"soc", "soc", false, false, .plain⟩,
       ⟨"limit", "limit", false, false, .plain⟩,
       ⟨"customData", "customData", true, false, .plain⟩],
    fromJ :=
      [⟨"soc", "soc", false, false, .plain⟩,
       ⟨"limit", "limit", false, false, .plain⟩,
       ⟨"customData", "customData", true, false, .plain⟩] }

/-- `RelativeTimeInterval`, include/ocpp/v2/ocpp_types.hpp l.830; `to_json`, lib/ocpp/v2/ocpp_types.cpp l.2366-2378; `from_json`, l.2381-2392. -/
def t_v2_RelativeTimeInterval : TypeTable :=
  { name := "v2.RelativeTimeInterval",
    fields :=
      [⟨"start", false, false, .int⟩,
       ⟨"duration", true, false, .int⟩,
       ⟨"customData", true, false, .json⟩],
    toJ :=
      [⟨"start", "start", false, false, .plain⟩,
       ⟨"duration", "duration", true, false, .plain⟩,
       ⟨"customData", "customData", true, false, .plain⟩],
    fromJ :=
      [⟨"start", "start", false, false, .plain⟩,
       ⟨"duration", "duration", true, false, .plain⟩,
       ⟨"customData", "customData", true, false, .plain⟩] }

/-- `Cost`, include/ocpp/v2/ocpp_types.hpp l.845; `to_json`, lib/ocpp/v2/ocpp_types.cpp l.2402-2415; `from_json`, l.2418-2430. -/
def t_v2_Cost : TypeTable :=
  { name := "v2.Cost",
    fields :=
      [⟨"costKind", false, false, .enum "v2.CostKindEnum"⟩,
       ⟨"amount", false, false, .int⟩,
       ⟨"amountMultiplier", true, false, .int⟩,
       ⟨"customData", true, false, .json⟩],
    toJ :=
      [⟨"costKind", "costKind", false, false, (.enum "v2.CostKindEnum")⟩,
       ⟨"amount", "amount", false, false, .plain⟩,
       ⟨"amountMultiplier", "amountMultiplier", true, false, .plain⟩,
       ⟨"customData", "customData", true, false, .plain⟩],
    fromJ :=
      [⟨"costKind", "costKind", false, false, (.enum "v2.CostKindEnum")⟩,
       ⟨"amount", "amount", false, false, .plain⟩,
       ⟨"amountMultiplier", "amountMultiplier", true, false, .plain⟩,
       ⟨"customData", "customData", true, false, .plain⟩] }

/-- `ConsumptionCost`, include/ocpp/v2/ocpp_types.hpp l.861; `to_json`, lib/ocpp/v2/ocpp_types.cpp l.2440-2450; `from_json`, l.2453-2464. -/
def t_v2_ConsumptionCost : TypeTable :=
  { name := "v2.ConsumptionCost",
    fields :=
      [⟨"startValue", false, false, .num⟩,
       ⟨"cost", false, true, .struct "v2.Cost"⟩,
       ⟨"customData", true, false, .json⟩],
    toJ :=
      [⟨"startValue", "startValue", false, false, .plain⟩,
       ⟨"cost", "cost", false, false, .plain⟩,
       ⟨"customData", "customData", true, false, .plain⟩],
    fromJ :=
      [⟨"startValue", "startValue", false, false, .plain⟩,
       ⟨"cost", "cost", false, true, .plain⟩,
       ⟨"customData", "customData", true, false, .plain⟩] }

/-- `SalesTariffEntry`, include/ocpp/v2/ocpp_types.hpp l.876; `to_json`, lib/ocpp/v2/ocpp_types.cpp l.2474-2492; `from_json`, l.2495-2514. -/
def t_v2_SalesTariffEntry : TypeTable :=
  { name := "v2.SalesTariffEntry",
    fields :=
      [⟨"relativeTimeInterval", false, false, .struct "v2.RelativeTimeInterval"⟩,
       ⟨"ePriceLevel", true, false, .int⟩,
       ⟨"consumptionCost", true, true, .struct "v2.ConsumptionCost"⟩,
       ⟨"customData", true, false, .json⟩],
    toJ :=
      [⟨"relativeTimeInterval", "relativeTimeInterval", false, false, .plain⟩,
       ⟨"ePriceLevel", "ePriceLevel", true, false, .plain⟩,
       ⟨"consumptionCost", "consumptionCost", true, true, .plain⟩,
       ⟨"customData", "customData", true, false, .plain⟩],
    fromJ :=
      [⟨"relativeTimeInterval", "relativeTimeInterval", false, false, .plain⟩,
       ⟨"ePriceLevel", "ePriceLevel", true, false, .plain⟩,
       ⟨"consumptionCost", "consumptionCost", true, true, .plain⟩,
       ⟨"customData", "customData", true, false, .plain⟩] }

/-- `SalesTariff`, include/ocpp/v2/ocpp_types.hpp l.892; `to_json`, lib/ocpp/v2/ocpp_types.cpp l.2524-2540; `from_json`, l.2543-2560. -/
def t_v2_SalesTariff : TypeTable :=
  { name := "v2.SalesTariff",
    fields :=
      [⟨"id", false, false, .int⟩,
       ⟨"salesTariffEntry", false, true, .struct "v2.SalesTariffEntry"⟩,
       ⟨"salesTariffDescription", true, false, .str (some 32)⟩,
       ⟨"numEPriceLevels", true, false, .int⟩,
       ⟨"customData", true, false, .json⟩],
    toJ :=
      [⟨"id", "id", false, false, .plain⟩,
       ⟨"salesTariffEntry", "salesTariffEntry", false, false, .plain⟩,
       ⟨"salesTariffDescription", "salesTariffDescription", true, false, .plain⟩,
       ⟨"numEPriceLevels", "numEPriceLevels", true, false, .plain⟩,
       ⟨"customData", "customData", true, false, .plain⟩],
    fromJ :=
      [⟨"id", "id", false, false, .plain⟩,
       ⟨"salesTariffEntry", "salesTariffEntry", false, true, .plain⟩,
       ⟨"salesTariffDescription", "salesTariffDescription", true, false, .plain⟩,
       ⟨"numEPriceLevels", "numEPriceLevels", true, false, .plain⟩,
       ⟨"customData", "customData", true, false, .plain⟩] }

/-- `RationalNumber`, include/ocpp/v2/ocpp_types.hpp l.909; `to_json`, lib/ocpp/v2/ocpp_types.cpp l.2570-2580; `from_json`, l.2583-2592. -/
def t_v2_RationalNumber : TypeTable :=
  { name := "v2.RationalNumber",
    fields :=
      [⟨"exponent", false, false, .int⟩,
       ⟨"value", false, false, .int⟩,
       ⟨"customData", true, false, .json⟩],
    toJ :=
      [⟨"exponent", "exponent", false, false, .plain⟩,
       ⟨"value", "value", false, false, .plain⟩,
       ⟨"customData", "customData", true, false, .plain⟩],
    fromJ :=
      [⟨"exponent", "exponent", false, false, .plain⟩,
       ⟨"value", "value", false, false, .plain⟩,
       ⟨"customData", "customData", true, false, .plain⟩] }

/-- `PriceRule`, include/ocpp/v2/ocpp_types.hpp l.924; `to_json`, lib/ocpp/v2/ocpp_types.cpp l.2602-2624; `from_json`, l.2627-2648. -/
def t_v2_PriceRule : TypeTable :=
  { name := "v2.PriceRule",
    fields :=
      [⟨"energyFee", false, false, .struct "v2.RationalNumber"⟩,
       ⟨"powerRangeStart", false, false, .struct "v2.RationalNumber"⟩,
       ⟨"parkingFeePeriod", true, false, .int⟩,
       ⟨"carbonDioxideEmission", true, false, .int⟩,
       ⟨"renewableGenerationPercentage", true, false, .int⟩,
       ⟨"parkingFee", true, false, .struct "v2.RationalNumber"⟩,
       ⟨"customData", true, false, .json⟩],
    toJ :=
      [⟨"energyFee", "energyFee", false, false, .plain⟩,
       ⟨"powerRangeStart", "powerRangeStart", false, false, .plain⟩,
       ⟨"parkingFeePeriod", "parkingFeePeriod", true, false, .plain⟩,
       ⟨"carbonDioxideEmission", "carbonDioxideEmission", true, false, .plain⟩,
       ⟨"renewableGenerationPercentage", "renewableGenerationPercentage", true, false, .plain⟩,
       ⟨"parkingFee", "parkingFee", true, false, .plain⟩,
       ⟨"customData", "customData", true, false, .plain⟩],
    fromJ :=
      [⟨"energyFee", "energyFee", false, false, .plain⟩,
       ⟨"powerRangeStart", "powerRangeStart", false, false, .plain⟩,
       ⟨"parkingFeePeriod", "parkingFeePeriod", true, false, .plain⟩,
       ⟨"carbonDioxideEmission", "carbonDioxideEmission", true, false, .plain⟩,
       ⟨"renewableGenerationPercentage", "renewableGenerationPercentage", true, false, .plain⟩,
       ⟨"parkingFee", "parkingFee", true, false, .plain⟩,
       ⟨"customData", "customData", true, false, .plain⟩] }

/-- `PriceRuleStack`, include/ocpp/v2/ocpp_types.hpp l.943; `to_json`, lib/ocpp/v2/ocpp_types.cpp l.2658-2668; `from_json`, l.2671-2682. -/
def t_v2_PriceRuleStack : TypeTable :=
  { name := "v2.PriceRuleStack",
    fields :=
      [⟨"duration", false, false, .int⟩,
       ⟨"priceRule", false, true, .struct "v2.PriceRule"⟩,
       ⟨"customData", true, false, .json⟩],
    toJ :=
      [⟨"duration", "duration", false, false, .plain⟩,
       ⟨"priceRule", "priceRule", false, false, .plain⟩,
       ⟨"customData", "customData", true, false, .plain⟩],
    fromJ :=
      [⟨"duration", "duration", false, false, .plain⟩,
       ⟨"priceRule", "priceRule", false, true, .plain⟩,
       ⟨"customData", "customData", true, false, .plain⟩] }

/-- `TaxRule`, include/ocpp/v2/ocpp_types.hpp l.958; `to_json`, lib/ocpp/v2/ocpp_types.cpp l.2692-2712; `from_json`, l.2715-2734. -/
def t_v2_TaxRule : TypeTable :=
  { name := "v2.TaxRule",
    fields :=
      [⟨"taxRuleID", false, false, .int⟩,
       ⟨"appliesToEnergyFee", false, false, .bool⟩,
       ⟨"appliesToParkingFee", false, false, .bool⟩,
       ⟨"appliesToOverstayFee", false, false, .bool⟩,
       ⟨"appliesToMinimumMaximumCost", false, false, .bool⟩,
       ⟨"taxRate", false, false, .struct "v2.RationalNumber"⟩,
       ⟨"taxRuleName", true, false, .str (some 100)⟩,
       ⟨"taxIncludedInPrice", true, false, .bool⟩,
       ⟨"customData", true, false, .json⟩],
    toJ :=
      [⟨"taxRuleID", "taxRuleID", false, false, .plain⟩,
       ⟨"appliesToEnergyFee", "appliesToEnergyFee", false, false, .plain⟩,
       ⟨"appliesToParkingFee", "appliesToParkingFee", false, false, .plain⟩,
       ⟨"appliesToOverstayFee", "appliesToOverstayFee", false, false, .plain⟩,
       ⟨"appliesToMinimumMaximumCost", "appliesToMinimumMaximumCost", false, false, .plain⟩,
       ⟨"taxRate", "taxRate", false, false, .plain⟩,
       ⟨"taxRuleName", "taxRuleName", true, false, .plain⟩,
       ⟨"taxIncludedInPrice", "taxIncludedInPrice", true, false, .plain⟩,
       ⟨"customData", "customData", true, false, .plain⟩],
    fromJ :=
      [⟨"taxRuleID", "taxRuleID", false, false, .plain⟩,
       ⟨"appliesToEnergyFee", "appliesToEnergyFee", false, false, .plain⟩,
       ⟨"appliesToParkingFee", "appliesToParkingFee", false, false, .plain⟩,
       ⟨"appliesToOverstayFee", "appliesToOverstayFee", false, false, .plain⟩,
       ⟨"appliesToMinimumMaximumCost", "appliesToMinimumMaximumCost", false, false, .plain⟩,
       ⟨"taxRate", "taxRate", false, false, .plain⟩,
       ⟨"taxRuleName", "taxRuleName", true, false, .plain⟩,
       ⟨"taxIncludedInPrice", "taxIncludedInPrice", true, false, .plain⟩,
       ⟨"customData", "customData", true, false, .plain⟩] }

/-- `OverstayRule`, include/ocpp/v2/ocpp_types.hpp l.979; `to_json`, lib/ocpp/v2/ocpp_types.cpp l.2744-2758; `from_json`, l.2761-2774. -/
def t_v2_OverstayRule : TypeTable :=
  { name := "v2.OverstayRule",
    fields :=
      [⟨"overstayFee", false, false, .struct "v2.RationalNumber"⟩,
       ⟨"startTime", false, false, .int⟩,
       ⟨"overstayFeePeriod", false, false, .int⟩,
       ⟨"overstayRuleDescription", true, false, .str (some 32)⟩,
       ⟨"customData", true, false, .json⟩],
    toJ :=
      [⟨"overstayFee", "overstayFee", false, false, .plain⟩,
       ⟨"startTime", "startTime", false, false, .plain⟩,
       ⟨"overstayFeePeriod", "overstayFeePeriod", false, false, .plain⟩,
       ⟨"overstayRuleDescription", "overstayRuleDescription", true, false, .plain⟩,
       ⟨"customData", "customData", true, false, .plain⟩],
    fromJ :=
      [⟨"overstayFee", "overstayFee", false, false, .plain⟩,
       ⟨"startTime", "startTime", false, false, .plain⟩,
       ⟨"overstayFeePeriod", "overstayFeePeriod", false, false, .plain⟩,
       ⟨"overstayRuleDescription", "overstayRuleDescription", true, false, .plain⟩,
       ⟨"customData", "customData", true, false, .plain⟩] }

/-- `OverstayRuleList`, include/ocpp/v2/ocpp_types.hpp l.996; `to_json`, lib/ocpp/v2/ocpp_types.cpp l.2784-2799; `from_json`, l.2802-2818. -/
def t_v2_OverstayRuleList : TypeTable :=
  { name := "v2.OverstayRuleList",
    fields :=
      [⟨"overstayRule", false, true, .struct "v2.OverstayRule"⟩,
       ⟨"overstayPowerThreshold", true, false, .struct "v2.RationalNumber"⟩,
       ⟨"overstayTimeThreshold", true, false, .int⟩,
       ⟨"customData", true, false, .json⟩],
    toJ :=
      [⟨"overstayRule", "overstayRule", false, false, .plain⟩,
       ⟨"overstayPowerThreshold", "overstayPowerThreshold", true, false, .plain⟩,
       ⟨"overstayTimeThreshold", "overstayTimeThreshold", true, false, .plain⟩,
       ⟨"customData", "customData", true, false, .plain⟩],
    fromJ :=
      [⟨"overstayRule", "overstayRule", false, true, .plain⟩,
       ⟨"overstayPowerThreshold", "overstayPowerThreshold", true, false, .plain⟩,
       ⟨"overstayTimeThreshold", "overstayTimeThreshold", true, false, .plain⟩,
       ⟨"customData", "customData", true, false, .plain⟩] }

/-- `AdditionalSelectedServices`, include/ocpp/v2/ocpp_types.hpp l.1012; `to_json`, lib/ocpp/v2/ocpp_types.cpp l.2828-2838; `from_json`, l.2841-2850. -/
def t_v2_AdditionalSelectedServices : TypeTable :=
  { name := "v2.AdditionalSelectedServices",
    fields :=
      [⟨"serviceFee", false, false, .struct "v2.RationalNumber"⟩,
       ⟨"serviceName", false, false, .str (some 80)⟩,
       ⟨"customData", true, false, .json⟩],
    toJ :=
      [⟨"serviceFee", "serviceFee", false, false, .plain⟩,
       ⟨"serviceName", "serviceName", false, false, .plain⟩,
       ⟨"customData", "customData", true, false, .plain⟩],
    fromJ :=
      [⟨"serviceFee", "serviceFee", false, false, .plain⟩,
       ⟨"serviceName", "serviceName", false, false, .plain⟩,
       ⟨"customData", "customData", true, false, .plain⟩] }

/-- `AbsolutePriceSchedule`, include/ocpp/v2/ocpp_types.hpp l.1028; `to_json`, lib/ocpp/v2/ocpp_types.cpp l.2860-2898; `from_json`, l.2901-2944. -/
def t_v2_AbsolutePriceSchedule : TypeTable :=
  { name := "v2.AbsolutePriceSchedule",
    fields :=
      [⟨"timeAnchor", false, false, .time⟩,
       ⟨"priceScheduleID", false, false, .int⟩,
       ⟨"currency", false, false, .str (some 3)⟩,
       ⟨"language", false, false, .str (some 8)⟩,
       ⟨"priceAlgorithm", false, false, .str (some 2000)⟩,
       ⟨"priceRuleStacks", false, true, .struct "v2.PriceRuleStack"⟩,
       ⟨"priceScheduleDescription", true, false, .str (some 160)⟩,
       ⟨"minimumCost", true, false, .struct "v2.RationalNumber"⟩,
       ⟨"maximumCost", true, false, .struct "v2.RationalNumber"⟩,
       ⟨"taxRules", true, true, .struct "v2.TaxRule"⟩,
       ⟨"overstayRuleList", true, false, .struct "v2.OverstayRuleList"⟩,
       ⟨"additionalSelectedServices", true, true, .struct "v2.AdditionalSelectedServices"⟩,
       ⟨"customData", true, false, .json⟩],
    toJ :=
      [⟨"timeAnchor", "timeAnchor", false, false, .time⟩,
       ⟨"priceScheduleID", "priceScheduleID", false, false, .plain⟩,
       ⟨"currency", "currency", false, false, .plain⟩,
       ⟨"language", "language", false, false, .plain⟩,
       ⟨"priceAlgorithm", "priceAlgorithm", false, false, .plain⟩,
       ⟨"priceRuleStacks", "priceRuleStacks", false, false, .plain⟩,
       ⟨"priceScheduleDescription", "priceScheduleDescription", true, false, .plain⟩,
       ⟨"minimumCost", "minimumCost", true, false, .plain⟩,
       ⟨"maximumCost", "maximumCost", true, false, .plain⟩,
       ⟨"taxRules", "taxRules", true, true, .plain⟩,
       ⟨"overstayRuleList", "overstayRuleList", true, false, .plain⟩,
       ⟨"additionalSelectedServices", "additionalSelectedServices", true, true, .plain⟩,
       ⟨"customData", "customData", true, false, .plain⟩],
    fromJ :=
      [⟨"timeAnchor", "timeAnchor", false, false, .time⟩,
       ⟨"priceScheduleID", "priceScheduleID", false, false, .plain⟩,
       ⟨"currency", "currency", false, false, .plain⟩,
       ⟨"language", "language", false, false, .plain⟩,
       ⟨"priceAlgorithm", "priceAlgorithm", false, false, .plain⟩,
       ⟨"priceRuleStacks", "priceRuleStacks", false, true, .plain⟩,
       ⟨"priceScheduleDescription", "priceScheduleDescription", true, false, .plain⟩,
       ⟨"minimumCost", "minimumCost", true, false, .plain⟩,
       ⟨"maximumCost", "maximumCost", true, false, .plain⟩,
       ⟨"taxRules", "taxRules", true, true, .plain⟩,
       ⟨"overstayRuleList", "overstayRuleList", true, false, .plain⟩,
       ⟨"additionalSelectedServices", "additionalSelectedServices", true, true, .plain⟩,
       ⟨"customData", "customData", true, false, .plain⟩] }

/-- `PriceLevelScheduleEntry`, include/ocpp/v2/ocpp_types.hpp l.1053; `to_json`, lib/ocpp/v2/ocpp_types.cpp l.2954-2964; `from_json`, l.2967-2976. -/
def t_v2_PriceLevelScheduleEntry : TypeTable :=
  { name := "v2.PriceLevelScheduleEntry",
    fields :=
      [⟨"duration", false, false, .int⟩,
       ⟨"priceLevel", false, false, .int⟩,
       ⟨"customData", true, false, .json⟩],
    toJ :=
      [⟨"duration", "duration", false, false, .plain⟩,
       ⟨"priceLevel", "priceLevel", false, false, .plain⟩,
       ⟨"customData", "customData", true, false, .plain⟩],
    fromJ :=
      [⟨"duration", "duration", false, false, .plain⟩,
       ⟨"priceLevel", "priceLevel", false, false, .plain⟩,
       ⟨"customData", "customData", true, false, .plain⟩] }

/-- `PriceLevelSchedule`, include/ocpp/v2/ocpp_types.hpp l.1068; `to_json`, lib/ocpp/v2/ocpp_types.cpp l.2986-3001; `from_json`, l.3004-3020. -/
def t_v2_PriceLevelSchedule : TypeTable :=
  { name := "v2.PriceLevelSchedule",
    fields :=
      [⟨"priceLevelScheduleEntries", false, true, .struct "v2.PriceLevelScheduleEntry"⟩,
       ⟨"timeAnchor", false, false, .time⟩,
       ⟨"priceScheduleId", false, false, .int⟩,
       ⟨"numberOfPriceLevels", false, false, .int⟩,
       ⟨"priceScheduleDescription", true, false, .str (some 32)⟩,
       ⟨"customData", true, false, .json⟩],
    toJ :=
      [⟨"priceLevelScheduleEntries", "priceLevelScheduleEntries", false, false, .plain⟩,
       ⟨"timeAnchor", "timeAnchor", false, false, .time⟩,
       ⟨"priceScheduleId", "priceScheduleId", false, false, .plain⟩,
       ⟨"numberOfPriceLevels", "numberOfPriceLevels", false, false, .plain⟩,
       ⟨"priceScheduleDescription", "priceScheduleDescription", true, false, .plain⟩,
       ⟨"customData", "customData", true, false, .plain⟩],
    fromJ :=
      [⟨"priceLevelScheduleEntries", "priceLevelScheduleEntries", false, true, .plain⟩,
       ⟨"timeAnchor", "timeAnchor", false, false, .time⟩,
       ⟨"priceScheduleId", "priceScheduleId", false, false, .plain⟩,
       ⟨"numberOfPriceLevels", "numberOfPriceLevels", false, false, .plain⟩,
       ⟨"priceScheduleDescription", "priceScheduleDescription", true, false, .plain⟩,
       ⟨"customData", "customData", true, false, .plain⟩] }

/-- `ChargingSchedule`, include/ocpp/v2/ocpp_types.hpp l.1086; `to_json`, lib/ocpp/v2/ocpp_types.cpp l.3030-3077; `from_json`, l.3080-3128. -/
def t_v2_ChargingSchedule : TypeTable :=
  { name := "v2.ChargingSchedule",
    fields :=
      [⟨"id", false, false, .int⟩,
       ⟨"chargingRateUnit", false, false, .enum "v2.ChargingRateUnitEnum"⟩,
       ⟨"chargingSchedulePeriod", false, true, .struct "v2.ChargingSchedulePeriod"⟩,
       ⟨"limitAtSoC", true, false, .struct "v2.LimitAtSoC"⟩,
       ⟨"startSchedule", true, false, .time⟩,
       ⟨"duration", true, false, .int⟩,
       ⟨"minChargingRate", true, false, .num⟩,
       ⟨"powerTolerance", true, false, .num⟩,
       ⟨"signatureId", true, false, .int⟩,
       ⟨"digestValue", true, false, .str (some 88)⟩,
       ⟨"useLocalTime", true, false, .bool⟩,
       ⟨"randomizedDelay", true, false, .int⟩,
       ⟨"salesTariff", true, false, .struct "v2.SalesTariff"⟩,
       ⟨"absolutePriceSchedule", true, false, .struct "v2.AbsolutePriceSchedule"⟩,
       ⟨"priceLevelSchedule", true, false, .struct "v2.PriceLevelSchedule"⟩,
       ⟨"customData", true, false, .json⟩],
    toJ :=
      [⟨"id", "id", false, false, .plain⟩,
       ⟨"chargingRateUnit", "chargingRateUnit", false, false, (.enum "v2.ChargingRateUnitEnum")⟩,
       ⟨"chargingSchedulePeriod", "chargingSchedulePeriod", false, false, .plain⟩,
       ⟨"limitAtSoC", "limitAtSoC", true, false, .plain⟩,
       ⟨"startSchedule", "startSchedule", true, false, .time⟩,
       ⟨"duration", "duration", true, false, .plain⟩,
       ⟨"minChargingRate", "minChargingRate", true, false, .plain⟩,
       ⟨"powerTolerance", "powerTolerance", true, false, .plain⟩,
       ⟨"signatureId", "signatureId", true, false, .plain⟩,
       ⟨"digestValue", "digestValue", true, false, .plain⟩,
       ⟨"useLocalTime", "useLocalTime", true, false, .plain⟩,
       ⟨"randomizedDelay", "randomizedDelay", true, false, .plain⟩,
       ⟨"salesTariff", "salesTariff", true, false, .plain⟩,
       ⟨"absolutePriceSchedule", "absolutePriceSchedule", true, false, .plain⟩,
       ⟨"priceLevelSchedule", "priceLevelSchedule", true, false, .plain⟩,
       ⟨"customData", "customData", true, false, .plain⟩],
    fromJ :=
      [⟨"id", "id", false, false, .plain⟩,
       ⟨"chargingRateUnit", "chargingRateUnit", false, false, (.enum "v2.ChargingRateUnitEnum")⟩,
       ⟨"chargingSchedulePeriod", "chargingSchedulePeriod", false, true, .plain⟩,
       ⟨"limitAtSoC", "limitAtSoC", true, false, .plain⟩,
       ⟨"startSchedule", "startSchedule", true, false, .time⟩,
       ⟨"duration", "duration", true, false, .plain⟩,
       ⟨"minChargingRate", "minChargingRate", true, false, .plain⟩,
       ⟨"powerTolerance", "powerTolerance", true, false, .plain⟩,
       ⟨"signatureId", "signatureId", true, false, .plain⟩,
       ⟨"digestValue", "digestValue", true, false, .plain⟩,
       ⟨"useLocalTime", "useLocalTime", true, false, .plain⟩,
       ⟨"randomizedDelay", "randomizedDelay", true, false, .plain⟩,
       ⟨"salesTariff", "salesTariff", true, false, .plain⟩,
       ⟨"absolutePriceSchedule", "absolutePriceSchedule", true, false, .plain⟩,
       ⟨"priceLevelSchedule", "priceLevelSchedule", true, false, .plain⟩,
       ⟨"customData", "customData", true, false, .plain⟩] }

/-- `ChargingLimit`, include/ocpp/v2/ocpp_types.hpp l.1114; `to_json`, lib/ocpp/v2/ocpp_types.cpp l.3138-3153; `from_json`, l.3156-3170. -/
def t_v2_ChargingLimit : TypeTable :=
  { name := "v2.ChargingLimit",
    fields :=
      [⟨"chargingLimitSource", false, false, .str (some 20)⟩,
       ⟨"isLocalGeneration", true, false, .bool⟩,
       ⟨"isGridCritical", true, false, .bool⟩,
       ⟨"customData", true, false, .json⟩],
    toJ :=
      [⟨"chargingLimitSource", "chargingLimitSource", false, false, .plain⟩,
       ⟨"isLocalGeneration", "isLocalGeneration", true, false, .plain⟩,
       ⟨"isGridCritical", "isGridCritical", true, false, .plain⟩,
       ⟨"customData", "customData", true, false, .plain⟩],
    fromJ :=
      [⟨"chargingLimitSource", "chargingLimitSource", false, false, .plain⟩,
       ⟨"isLocalGeneration", "isLocalGeneration", true, false, .plain⟩,
       ⟨"isGridCritical", "isGridCritical", true, false, .plain⟩,
       ⟨"customData", "customData", true, false, .plain⟩] }

/-- `MessageInfo`, include/ocpp/v2/ocpp_types.hpp l.1130; `to_json`, lib/ocpp/v2/ocpp_types.cpp l.3180-3212; `from_json`, l.3215-3248. -/
def t_v2_MessageInfo : TypeTable :=
  { name := "v2.MessageInfo",
    fields :=
      [⟨"id", false, false, .int⟩,
       ⟨"priority", false, false, .enum "v2.MessagePriorityEnum"⟩,
       ⟨"message", false, false, .struct "v2.MessageContent"⟩,
       ⟨"display", true, false, .struct "v2.Component"⟩,
       ⟨"state", true, false, .enum "v2.MessageStateEnum"⟩,
       ⟨"startDateTime", true, false, .time⟩,
       ⟨"endDateTime", true, false, .time⟩,
       ⟨"transactionId", true, false, .str (some 36)⟩,
       ⟨"messageExtra", true, true, .struct "v2.MessageContent"⟩,
       ⟨"customData", true, false, .json⟩],
    toJ :=
      [⟨"id", "id", false, false, .plain⟩,
       ⟨"priority", "priority", false, false, (.enum "v2.MessagePriorityEnum")⟩,
       ⟨"message", "message", false, false, .plain⟩,
       ⟨"display", "display", true, false, .plain⟩,
       ⟨"state", "state", true, false, (.enum "v2.MessageStateEnum")⟩,
       ⟨"startDateTime", "startDateTime", true, false, .time⟩,
       ⟨"endDateTime", "endDateTime", true, false, .time⟩,
       ⟨"transactionId", "transactionId", true, false, .plain⟩,
       ⟨"messageExtra", "messageExtra", true, true, .plain⟩,
       ⟨"customData", "customData", true, false, .plain⟩],
    fromJ :=
      [⟨"id", "id", false, false, .plain⟩,
       ⟨"priority", "priority", false, false, (.enum "v2.MessagePriorityEnum")⟩,
       ⟨"message", "message", false, false, .plain⟩,
       ⟨"display", "display", true, false, .plain⟩,
       ⟨"state", "state", true, false, (.enum "v2.MessageStateEnum")⟩,
       ⟨"startDateTime", "startDateTime", true, false, .time⟩,
       ⟨"endDateTime", "endDateTime", true, false, .time⟩,
       ⟨"transactionId", "transactionId", true, false, .plain⟩,
       ⟨"messageExtra", "messageExtra", true, true, .plain⟩,
       ⟨"customData", "customData", true, false, .plain⟩] }

/-- `ACChargingParameters`, include/ocpp/v2/ocpp_types.hpp l.1152; `to_json`, lib/ocpp/v2/ocpp_types.cpp l.3258-3270; `from_json`, l.3273-3284. -/
def t_v2_ACChargingParameters : TypeTable :=
  { name := "v2.ACChargingParameters",
    fields :=
      [⟨"energyAmount", false, false, .num⟩,
       ⟨"evMinCurrent", false, false, .num⟩,
       ⟨"evMaxCurrent", false, false, .num⟩,
       ⟨"evMaxVoltage", false, false, .num⟩,
       ⟨"customData", true, false, .json⟩],
    toJ :=
      [⟨"energyAmount", "energyAmount", false, false, .plain⟩,
       ⟨"evMinCurrent", "evMinCurrent", false, false, .plain⟩,
       ⟨"evMaxCurrent", "evMaxCurrent", false, false, .plain⟩,
       ⟨"evMaxVoltage", "evMaxVoltage", false, false, .plain⟩,
       ⟨"customData", "customData", true, false, .plain⟩],
    fromJ :=
      [⟨"energyAmount", "energyAmount", false, false, .plain⟩,
       ⟨"evMinCurrent", "evMinCurrent", false, false, .plain⟩,
       ⟨"evMaxCurrent", "evMaxCurrent", false, false, .plain⟩,
       ⟨"evMaxVoltage", "evMaxVoltage", false, false, .plain⟩,
       ⟨"customData", "customData", true, false, .plain⟩] }

/-- `DERChargingParameters`, include/ocpp/v2/ocpp_types.hpp l.1169; `to_json`, lib/ocpp/v2/ocpp_types.cpp l.3294-3438; `from_json`, l.3441-3581. -/
def t_v2_DERChargingParameters : TypeTable :=
  { name := "v2.DERChargingParameters",
    fields :=
      [⟨"evSupportedDERControl", true, true, .enum "v2.DERControlEnum"⟩,
       ⟨"evOverExcitedMaxDischargePower", true, false, .num⟩,
       ⟨"evOverExcitedPowerFactor", true, false, .num⟩,
       ⟨"evUnderExcitedMaxDischargePower", true, false, .num⟩,
       ⟨"evUnderExcitedPowerFactor", true, false, .num⟩,
       ⟨"maxApparentPower", true, false, .num⟩,
       ⟨"maxChargeApparentPower", true, false, .num⟩,
       ⟨"maxChargeApparentPower_L2", true, false, .num⟩,
       ⟨"maxChargeApparentPower_L3", true, false, .num⟩,
       ⟨"maxDischargeApparentPower", true, false, .num⟩,
       ⟨"maxDischargeApparentPower_L2", true, false, .num⟩,
       ⟨"maxDischargeApparentPower_L3", true, false, .num⟩,
       ⟨"maxChargeReactivePower", true, false, .num⟩,
       ⟨"maxChargeReactivePower_L2", true, false, .num⟩,
       ⟨"maxChargeReactivePower_L3", true, false, .num⟩,
       ⟨"minChargeReactivePower", true, false, .num⟩,
       ⟨"minChargeReactivePower_L2", true, false, .num⟩,
       ⟨"minChargeReactivePower_L3", true, false, .num⟩,
       ⟨"maxDischargeReactivePower", true, false, .num⟩,
       ⟨"maxDischargeReactivePower_L2", true, false, .num⟩,
       ⟨"maxDischargeReactivePower_L3", true, false, .num⟩,
       ⟨"minDischargeReactivePower", true, false, .num⟩,
       ⟨"minDischargeReactivePower_L2", true, false, .num⟩,
       ⟨"minDischargeReactivePower_L3", true, false, .num⟩,
       ⟨"nominalVoltage", true, false, .num⟩,
       ⟨"nominalVoltageOffset", true, false, .num⟩,
       ⟨"maxNominalVoltage", true, false, .num⟩,
       ⟨"minNominalVoltage", true, false, .num⟩,
       ⟨"evInverterManufacturer", true, false, .str (some 50)⟩,
       ⟨"evInverterModel", true, false, .str (some 50)⟩,
       ⟨"evInverterSerialNumber", true, false, .str (some 50)⟩,
       ⟨"evInverterSwVersion", true, false, .str (some 50)⟩,
       ⟨"evInverterHwVersion", true, false, .str (some 50)⟩,
       ⟨"evIslandingDetectionMethod", true, true, .enum "v2.IslandingDetectionEnum"⟩,
       ⟨"evIslandingTripTime", true, false, .num⟩,
       ⟨"evMaximumLevel1DCInjection", true, false, .num⟩,
       ⟨"evDurationLevel1DCInjection", true, false, .num⟩,
       ⟨"evMaximumLevel2DCInjection", true, false, .num⟩,
       ⟨"evDurationLevel2DCInjection", true, false, .num⟩,
       ⟨"evReactiveSusceptance", true, false, .num⟩,
       ⟨"evSessionTotalDischargeEnergyAvailable", true, false, .num⟩,
       ⟨"customData", true, false, .json⟩],
    toJ :=
      [⟨"evSupportedDERControl", "evSupportedDERControl", true, true, (.enum "v2.DERControlEnum")⟩,
       ⟨"evOverExcitedMaxDischargePower", "evOverExcitedMaxDischargePower", true, false, .plain⟩,
       ⟨"evOverExcitedPowerFactor", "evOverExcitedPowerFactor", true, false, .plain⟩,
       ⟨"evUnderExcitedMaxDischargePower", "evUnderExcitedMaxDischargePower", true, false, .plain⟩,
       ⟨"evUnderExcitedPowerFactor", "evUnderExcitedPowerFactor", true, false, .plain⟩,
       ⟨"maxApparentPower", "maxApparentPower", true, false, .plain⟩,
       ⟨"maxChargeApparentPower", "maxChargeApparentPower", true, false, .plain⟩,
       ⟨"maxChargeApparentPower_L2", "maxChargeApparentPower_L2", true, false, .plain⟩,
       ⟨"maxChargeApparentPower_L3", "maxChargeApparentPower_L3", true, false, .plain⟩,
       ⟨"maxDischargeApparentPower", "maxDischargeApparentPower", true, false, .plain⟩,
       ⟨"maxDischargeApparentPower_L2", "maxDischargeApparentPower_L2", true, false, .plain⟩,
       ⟨"maxDischargeApparentPower_L3", "maxDischargeApparentPower_L3", true, false, .plain⟩,
       ⟨"maxChargeReactivePower", "maxChargeReactivePower", true, false, .plain⟩,
       ⟨"maxChargeReactivePower_L2", "maxChargeReactivePower_L2", true, false, .plain⟩,
       ⟨"maxChargeReactivePower_L3", "maxChargeReactivePower_L3", true, false, .plain⟩,
       ⟨"minChargeReactivePower", "minChargeReactivePower", true, false, .plain⟩,
       ⟨"minChargeReactivePower_L2", "minChargeReactivePower_L2", true, false, .plain⟩,
       ⟨"minChargeReactivePower_L3", "minChargeReactivePower_L3", true, false, .plain⟩,
       ⟨"maxDischargeReactivePower", "maxDischargeReactivePower", true, false, .plain⟩,
       ⟨"maxDischargeReactivePower_L2", "maxDischargeReactivePower_L2", true, false, .plain⟩,
       ⟨"maxDischargeReactivePower_L3", "maxDischargeReactivePower_L3", true, false, .plain⟩,
       ⟨"minDischargeReactivePower", "minDischargeReactivePower", true, false, .plain⟩,
       ⟨"minDischargeReactivePower_L2", "minDischargeReactivePower_L2", true, false, .plain⟩,
       ⟨"minDischargeReactivePower_L3", "minDischargeReactivePower_L3", true, false, .plain⟩,
       ⟨"nominalVoltage", "nominalVoltage", true, false, .plain⟩,
       ⟨"nominalVoltageOffset", "nominalVoltageOffset", true, false, .plain⟩,
       ⟨"maxNominalVoltage", "maxNominalVoltage", true, false, .plain⟩,
       ⟨"minNominalVoltage", "minNominalVoltage", true, false, .plain⟩,
       ⟨"evInverterManufacturer", "evInverterManufacturer", true, false, .plain⟩,
       ⟨"evInverterModel", "evInverterModel", true, false, .plain⟩,
       ⟨"evInverterSerialNumber", "evInverterSerialNumber", true, false, .plain⟩,
       ⟨"evInverterSwVersion", "evInverterSwVersion", true, false, .plain⟩,
       ⟨"evInverterHwVersion", "evInverterHwVersion", true, false, .plain⟩,
       ⟨"evIslandingDetectionMethod", "evIslandingDetectionMethod", true, true, (.enum "v2.IslandingDetectionEnum")⟩,
       ⟨"evIslandingTripTime", "evIslandingTripTime", true, false, .plain⟩,
       ⟨"evMaximumLevel1DCInjection", "evMaximumLevel1DCInjection", true, false, .plain⟩,
       ⟨"evDurationLevel1DCInjection", "evDurationLevel1DCInjection", true, false, .plain⟩,
       ⟨"evMaximumLevel2DCInjection", "evMaximumLevel2DCInjection", true, false, .plain⟩,
       ⟨"evDurationLevel2DCInjection", "evDurationLevel2DCInjection", true, false, .plain⟩,
       ⟨"evReactiveSusceptance", "evReactiveSusceptance", true, false, .plain⟩,
       ⟨"evSessionTotalDischargeEnergyAvailable", "evSessionTotalDischargeEnergyAvailable", true, false, .plain⟩,
       ⟨"customData", "customData", true, false, .plain⟩],
    fromJ :=
      [⟨"evSupportedDERControl", "evSupportedDERControl", true, true, (.enum "v2.DERControlEnum")⟩,
       ⟨"evOverExcitedMaxDischargePower", "evOverExcitedMaxDischargePower", true, false, .plain⟩,
       ⟨"evOverExcitedPowerFactor", "evOverExcitedPowerFactor", true, false, .plain⟩,
       ⟨"evUnderExcitedMaxDischargePower", "evUnderExcitedMaxDischargePower", true, false, .plain⟩,
       ⟨"evUnderExcitedPowerFactor", "evUnderExcitedPowerFactor", true, false, .plain⟩,
       ⟨"maxApparentPower", "maxApparentPower", true, false, .plain⟩,
       ⟨"maxChargeApparentPower", "maxChargeApparentPower", true, false, .plain⟩,
       ⟨"maxChargeApparentPower_L2", "maxChargeApparentPower_L2", true, false, .plain⟩,
       ⟨"maxChargeApparentPower_L3", "maxChargeApparentPower_L3", true, false, .plain⟩,
       ⟨"maxDischargeApparentPower", "maxDischargeApparentPower", true, false, .plain⟩,
       ⟨"maxDischargeApparentPower_L2", "maxDischargeApparentPower_L2", true, false, .plain⟩,
       ⟨"maxDischargeApparentPower_L3", "maxDischargeApparentPower_L3", true, false, .plain⟩,
       ⟨"maxChargeReactivePower", "maxChargeReactivePower", true, false, .plain⟩,
       ⟨"maxChargeReactivePower_L2", "maxChargeReactivePower_L2", true, false, .plain⟩,
       ⟨"maxChargeReactivePower_L3", "maxChargeReactivePower_L3", true, false, .plain⟩,
       ⟨"minChargeReactivePower", "minChargeReactivePower", true, false, .plain⟩,
       ⟨"minChargeReactivePower_L2", "minChargeReactivePower_L2", true, false, .plain⟩,
       ⟨"minChargeReactivePower_L3", "minChargeReactivePower_L3", true, false, .plain⟩,
       ⟨"maxDischargeReactivePower", "maxDischargeReactivePower", true, false, .plain⟩,
       ⟨"maxDischargeReactivePower_L2", "maxDischargeReactivePower_L2", true, false, .plain⟩,
       ⟨"maxDischargeReactivePower_L3", "maxDischargeReactivePower_L3", true, false, .plain⟩,
       ⟨"minDischargeReactivePower", "minDischargeReactivePower", true, false, .plain⟩,
       ⟨"minDischargeReactivePower_L2", "minDischargeReactivePower_L2", true, false, .plain⟩,
       ⟨"minDischargeReactivePower_L3", "minDischargeReactivePower_L3", true, false, .plain⟩,
       ⟨"nominalVoltage", "nominalVoltage", true, false, .plain⟩,
       ⟨"nominalVoltageOffset", "nominalVoltageOffset", true, false, .plain⟩,
       ⟨"maxNominalVoltage", "maxNominalVoltage", true, false, .plain⟩,
       ⟨"minNominalVoltage", "minNominalVoltage", true, false, .plain⟩,
       ⟨"evInverterManufacturer", "evInverterManufacturer", true, false, .plain⟩,
       ⟨"evInverterModel", "evInverterModel", true, false, .plain⟩,
       ⟨"evInverterSerialNumber", "evInverterSerialNumber", true, false, .plain⟩,
       ⟨"evInverterSwVersion", "evInverterSwVersion", true, false, .plain⟩,
       ⟨"evInverterHwVersion", "evInverterHwVersion", true, false, .plain⟩,
       ⟨"evIslandingDetectionMethod", "evIslandingDetectionMethod", true, true, (.enum "v2.IslandingDetectionEnum")⟩,
       ⟨"evIslandingTripTime", "evIslandingTripTime", true, false, .plain⟩,
       ⟨"evMaximumLevel1DCInjection", "evMaximumLevel1DCInjection", true, false, .plain⟩,
       ⟨"evDurationLevel1DCInjection", "evDurationLevel1DCInjection", true, false, .plain⟩,
       ⟨"evMaximumLevel2DCInjection", "evMaximumLevel2DCInjection", true, false, .plain⟩,
       ⟨"evDurationLevel2DCInjection", "evDurationLevel2DCInjection", true, false, .plain⟩,
       ⟨"evReactiveSusceptance", "evReactiveSusceptance", true, false, .plain⟩,
       ⟨"evSessionTotalDischargeEnergyAvailable", "evSessionTotalDischargeEnergyAvailable", true, false, .plain⟩,
       ⟨"customData", "customData", true, false, .plain⟩] }

/-- `EVPriceRule`, include/ocpp/v2/ocpp_types.hpp l.1223; `to_json`, lib/ocpp/v2/ocpp_types.cpp l.3591-3601; `from_json`, l.3604-3613. -/
def t_v2_EVPriceRule : TypeTable :=
  { name := "v2.EVPriceRule",
    fields :=
      [⟨"energyFee", false, false, .num⟩,
       ⟨"powerRangeStart", false, false, .num⟩,
       ⟨"customData", true, false, .json⟩],
    toJ :=
      [⟨"energyFee", "energyFee", false, false, .plain⟩,
       ⟨"powerRangeStart", "powerRangeStart", false, false, .plain⟩,
       ⟨"customData", "customData", true, false, .plain⟩],
    fromJ :=
      [⟨"energyFee", "energyFee", false, false, .plain⟩,
       ⟨"powerRangeStart", "powerRangeStart", false, false, .plain⟩,
       ⟨"customData", "customData", true, false, .plain⟩] }

/-- `EVAbsolutePriceScheduleEntry`, include/ocpp/v2/ocpp_types.hpp l.1238; `to_json`, lib/ocpp/v2/ocpp_types.cpp l.3623-3633; `from_json`, l.3636-3647. -/
def t_v2_EVAbsolutePriceScheduleEntry : TypeTable :=
  { name := "v2.EVAbsolutePriceScheduleEntry",
    fields :=
      [⟨"duration", false, false, .int⟩,
       ⟨"evPriceRule", false, true, .struct "v2.EVPriceRule"⟩,
       ⟨"customData", true, false, .json⟩],
    toJ :=
      [⟨"duration", "duration", false, false, .plain⟩,
       ⟨"evPriceRule", "evPriceRule", false, false, .plain⟩,
       ⟨"customData", "customData", true, false, .plain⟩],
    fromJ :=
      [⟨"duration", "duration", false, false, .plain⟩,
       ⟨"evPriceRule", "evPriceRule", false, true, .plain⟩,
       ⟨"customData", "customData", true, false, .plain⟩] }

/-- `EVAbsolutePriceSchedule`, include/ocpp/v2/ocpp_types.hpp l.1254; `to_json`, lib/ocpp/v2/ocpp_types.cpp l.3658-3670; `from_json`, l.3673-3686. -/
def t_v2_EVAbsolutePriceSchedule : TypeTable :=
  { name := "v2.EVAbsolutePriceSchedule",
    fields :=
      [⟨"timeAnchor", false, false, .time⟩,
       ⟨"currency", false, false, .str (some 3)⟩,
       ⟨"evAbsolutePriceScheduleEntries", false, true, .struct "v2.EVAbsolutePriceScheduleEntry"⟩,
       ⟨"priceAlgorithm", false, false, .str (some 2000)⟩,
       ⟨"customData", true, false, .json⟩],
    toJ :=
      [⟨"timeAnchor", "timeAnchor", false, false, .time⟩,
       ⟨"currency", "currency", false, false, .plain⟩,
       ⟨"evAbsolutePriceScheduleEntries", "evAbsolutePriceScheduleEntries", false, false, .plain⟩,
       ⟨"priceAlgorithm", "priceAlgorithm", false, false, .plain⟩,
       ⟨"customData", "customData", true, false, .plain⟩],
    fromJ :=
      [⟨"timeAnchor", "timeAnchor", false, false, .time⟩,
       ⟨"currency", "currency", false, false, .plain⟩,
       ⟨"evAbsolutePriceScheduleEntries", "evAbsolutePriceScheduleEntries", false, true, .plain⟩,
       ⟨"priceAlgorithm", "priceAlgorithm", false, false, .plain⟩,
       ⟨"customData", "customData", true, false, .plain⟩] }

/-- `EVPowerScheduleEntry`, include/ocpp/v2/ocpp_types.hpp l.1271; `to_json`, lib/ocpp/v2/ocpp_types.cpp l.3696-3706; `from_json`, l.3709-3718. -/
def t_v2_EVPowerScheduleEntry : TypeTable :=
  { name := "v2.EVPowerScheduleEntry",
    fields :=
      [⟨"duration", false, false, .int⟩,
       ⟨"power", false, false, .num⟩,
       ⟨"customData", true, false, .json⟩],
    toJ :=
      [⟨"duration", "duration", false, false, .plain⟩,
       ⟨"power", "power", false, false, .plain⟩,
       ⟨"customData", "customData", true, false, .plain⟩],
    fromJ :=
      [⟨"duration", "duration", false, false, .plain⟩,
       ⟨"power", "power", false, false, .plain⟩,
       ⟨"customData", "customData", true, false, .plain⟩] }

/-- `EVPowerSchedule`, include/ocpp/v2/ocpp_types.hpp l.1286; `to_json`, lib/ocpp/v2/ocpp_types.cpp l.3728-3738; `from_json`, l.3741-3752. -/
def t_v2_EVPowerSchedule : TypeTable :=
  { name := "v2.EVPowerSchedule",
    fields :=
      [⟨"evPowerScheduleEntries", false, true, .struct "v2.EVPowerScheduleEntry"⟩,
       ⟨"timeAnchor", false, false, .time⟩,
       ⟨"customData", true, false, .json⟩],
    toJ :=
      [⟨"evPowerScheduleEntries", "evPowerScheduleEntries", false, false, .plain⟩,
       ⟨"timeAnchor", "timeAnchor", false, false, .time⟩,
       ⟨"customData", "customData", true, false, .plain⟩],
    fromJ :=
      [⟨"evPowerScheduleEntries", "evPowerScheduleEntries", false, true, .plain⟩,
       ⟨"timeAnchor", "timeAnchor", false, false, .time⟩,
       ⟨"customData", "customData", true, false, .plain⟩] }

/-- `EVEnergyOffer`, include/ocpp/v2/ocpp_types.hpp l.1301; `to_json`, lib/ocpp/v2/ocpp_types.cpp l.3762-3774; `from_json`, l.3777-3788. -/
def t_v2_EVEnergyOffer : TypeTable :=
  { name := "v2.EVEnergyOffer",
    fields :=
      [⟨"evPowerSchedule", false, false, .struct "v2.EVPowerSchedule"⟩,
       ⟨"evAbsolutePriceSchedule", true, false, .struct "v2.EVAbsolutePriceSchedule"⟩,
       ⟨"customData", true, false, .json⟩],
    toJ :=
      [⟨"evPowerSchedule", "evPowerSchedule", false, false, .plain⟩,
       ⟨"evAbsolutePriceSchedule", "evAbsolutePriceSchedule", true, false, .plain⟩,
       ⟨"customData", "customData", true, false, .plain⟩],
    fromJ :=
      [⟨"evPowerSchedule", "evPowerSchedule", false, false, .plain⟩,
       ⟨"evAbsolutePriceSchedule", "evAbsolutePriceSchedule", true, false, .plain⟩,
       ⟨"customData", "customData", true, false, .plain⟩] }

/-- `DCChargingParameters`, include/ocpp/v2/ocpp_types.hpp l.1316; `to_json`, lib/ocpp/v2/ocpp_types.cpp l.3798-3826; `from_json`, l.3829-3856. -/
def t_v2_DCChargingParameters : TypeTable :=
  { name := "v2.DCChargingParameters",
    fields :=
      [⟨"evMaxCurrent", false, false, .num⟩,
       ⟨"evMaxVoltage", false, false, .num⟩,
       ⟨"evMaxPower", true, false, .num⟩,
       ⟨"evEnergyCapacity", true, false, .num⟩,
       ⟨"energyAmount", true, false, .num⟩,
       ⟨"stateOfCharge", true, false, .int⟩,
       ⟨"fullSoC", true, false, .int⟩,
       ⟨"bulkSoC", true, false, .int⟩,
       ⟨"customData", true, false, .json⟩],
    toJ :=
      [⟨"evMaxCurrent", "evMaxCurrent", false, false, .plain⟩,
       ⟨"evMaxVoltage", "evMaxVoltage", false, false, .plain⟩,
       ⟨"evMaxPower", "evMaxPower", true, false, .plain⟩,
       ⟨"evEnergyCapacity", "evEnergyCapacity", true, false, .plain⟩,
       ⟨"energyAmount", "energyAmount", true, false, .plain⟩,
       ⟨"stateOfCharge", "stateOfCharge", true, false, .plain⟩,
       ⟨"fullSoC", "fullSoC", true, false, .plain⟩,
       ⟨"bulkSoC", "bulkSoC", true, false, .plain⟩,
       ⟨"customData", "customData", true, false, .plain⟩],
    fromJ :=
      [⟨"evMaxCurrent", "evMaxCurrent", false, false, .plain⟩,
       ⟨"evMaxVoltage", "evMaxVoltage", false, false, .plain⟩,
       ⟨"evMaxPower", "evMaxPower", true, false, .plain⟩,
       ⟨"evEnergyCapacity", "evEnergyCapacity", true, false, .plain⟩,
       ⟨"energyAmount", "energyAmount", true, false, .plain⟩,
       ⟨"stateOfCharge", "stateOfCharge", true, false, .plain⟩,
       ⟨"fullSoC", "fullSoC", true, false, .plain⟩,
       ⟨"bulkSoC", "bulkSoC", true, false, .plain⟩,
       ⟨"customData", "customData", true, false, .plain⟩] }

/-- `V2XChargingParameters`, include/ocpp/v2/ocpp_types.hpp l.1337; `to_json`, lib/ocpp/v2/ocpp_types.cpp l.3866-3945; `from_json`, l.3948-4027. -/
def t_v2_V2XChargingParameters : TypeTable :=
  { name := "v2.V2XChargingParameters",
    fields :=
      [⟨"minChargePower", true, false, .num⟩,
       ⟨"minChargePower_L2", true, false, .num⟩,
       ⟨"minChargePower_L3", true, false, .num⟩,
       ⟨"maxChargePower", true, false, .num⟩,
       ⟨"maxChargePower_L2", true, false, .num⟩,
       ⟨"maxChargePower_L3", true, false, .num⟩,
       ⟨"minDischargePower", true, false, .num⟩,
       ⟨"minDischargePower_L2", true, false, .num⟩,
       ⟨"minDischargePower_L3", true, false, .num⟩,
       ⟨"maxDischargePower", true, false, .num⟩,
       ⟨"maxDischargePower_L2", true, false, .num⟩,
       ⟨"maxDischargePower_L3", true, false, .num⟩,
       ⟨"minChargeCurrent", true, false, .num⟩,
       ⟨"maxChargeCurrent", true, false, .num⟩,
       ⟨"minDischargeCurrent", true, false, .num⟩,
       ⟨"maxDischargeCurrent", true, false, .num⟩,
       ⟨"minVoltage", true, false, .num⟩,
       ⟨"maxVoltage", true, false, .num⟩,
       ⟨"evTargetEnergyRequest", true, false, .num⟩,
       ⟨"evMinEnergyRequest", true, false, .num⟩,
       ⟨"evMaxEnergyRequest", true, false, .num⟩,
       ⟨"evMinV2XEnergyRequest", true, false, .num⟩,
       ⟨"evMaxV2XEnergyRequest", true, false, .num⟩,
       ⟨"targetSoC", true, false, .int⟩,
       ⟨"customData", true, false, .json⟩],
    toJ :=
      [⟨"minChargePower", "minChargePower", true, false, .plain⟩,
       ⟨"minChargePower_L2", "minChargePower_L2", true, false, .plain⟩,
       ⟨"minChargePower_L3", "minChargePower_L3", true, false, .plain⟩,
       ⟨"maxChargePower", "maxChargePower", true, false, .plain⟩,
       ⟨"maxChargePower_L2", "maxChargePower_L2", true, false, .plain⟩,
       ⟨"maxChargePower_L3", "maxChargePower_L3", true, false, .plain⟩,
       ⟨"minDischargePower", "minDischargePower", true, false, .plain⟩,
       ⟨"minDischargePower_L2", "minDischargePower_L2", true, false, .plain⟩,
       ⟨"minDischargePower_L3", "minDischargePower_L3", true, false, .plain⟩,
       ⟨"maxDischargePower", "maxDischargePower", true, false, .plain⟩,
       ⟨"maxDischargePower_L2", "maxDischargePower_L2", true, false, .plain⟩,
       ⟨"maxDischargePower_L3", "maxDischargePower_L3", true, false, .plain⟩,
       ⟨"minChargeCurrent", "minChargeCurrent", true, false, .plain⟩,
       ⟨"maxChargeCurrent", "maxChargeCurrent", true, false, .plain⟩,
       ⟨"minDischargeCurrent", "minDischargeCurrent", true, false, .plain⟩,
       ⟨"maxDischargeCurrent", "maxDischargeCurrent", true, false, .plain⟩,
       ⟨"minVoltage", "minVoltage", true, false, .plain⟩,
       ⟨"maxVoltage", "maxVoltage", true, false, .plain⟩,
       ⟨"evTargetEnergyRequest", "evTargetEnergyRequest", true, false, .plain⟩,
       ⟨"evMinEnergyRequest", "evMinEnergyRequest", true, false, .plain⟩,
       ⟨"evMaxEnergyRequest", "evMaxEnergyRequest", true, false, .plain⟩,
       ⟨"evMinV2XEnergyRequest", "evMinV2XEnergyRequest", true, false, .plain⟩,
       ⟨"evMaxV2XEnergyRequest", "evMaxV2XEnergyRequest", true, false, .plain⟩,
       ⟨"targetSoC", "targetSoC", true, false, .plain⟩,
       ⟨"customData", "customData", true, false, .plain⟩],
    fromJ :=
      [⟨"minChargePower", "minChargePower", true, false, .plain⟩,
       ⟨"minChargePower_L2", "minChargePower_L2", true, false, .plain⟩,
       ⟨"minChargePower_L3", "minChargePower_L3", true, false, .plain⟩,
       ⟨"maxChargePower", "maxChargePower", true, false, .plain⟩,
       ⟨"maxChargePower_L2", "maxChargePower_L2", true, false, .plain⟩,
       ⟨"maxChargePower_L3", "maxChargePower_L3", true, false, .plain⟩,
       ⟨"minDischargePower", "minDischargePower", true, false, .plain⟩,
       ⟨"minDischargePower_L2", "minDischargePower_L2", true, false, .plain⟩,
       ⟨"minDischargePower_L3", "minDischargePower_L3", true, false, .plain⟩,
       ⟨"maxDischargePower", "maxDischargePower", true, false, .plain⟩,
       ⟨"maxDischargePower_L2", "maxDischargePower_L2", true, false, .plain⟩,
       ⟨"maxDischargePower_L3", "maxDischargePower_L3", true, false, .plain⟩,
       ⟨"minChargeCurrent", "minChargeCurrent", true, false, .plain⟩,
       ⟨"maxChargeCurrent", "maxChargeCurrent", true, false, .plain⟩,
       ⟨"minDischargeCurrent", "minDischargeCurrent", true, false, .plain⟩,
       ⟨"maxDischargeCurrent", "maxDischargeCurrent", true, false, .plain⟩,
       ⟨"minVoltage", "minVoltage", true, false, .plain⟩,
       ⟨"maxVoltage", "maxVoltage", true, false, .plain⟩,
       ⟨"evTargetEnergyRequest", "evTargetEnergyRequest", true, false, .plain⟩,
       ⟨"evMinEnergyRequest", "evMinEnergyRequest", true, false, .plain⟩,
       ⟨"evMaxEnergyRequest", "evMaxEnergyRequest", true, false, .plain⟩,
       ⟨"evMinV2XEnergyRequest", "evMinV2XEnergyRequest", true, false, .plain⟩,
       ⟨"evMaxV2XEnergyRequest", "evMaxV2XEnergyRequest", true, false, .plain⟩,
       ⟨"targetSoC", "targetSoC", true, false, .plain⟩,
       ⟨"customData", "customData", true, false, .plain⟩] }

/-- `ChargingNeeds`, include/ocpp/v2/ocpp_types.hpp l.1374; `to_json`, lib/ocpp/v2/ocpp_types.cpp l.4037-4076; `from_json`, l.4079-4119. -/
def t_v2_ChargingNeeds : TypeTable :=
  { name := "v2.ChargingNeeds",
    fields :=
      [⟨"requestedEnergyTransfer", false, false, .enum "v2.EnergyTransferModeEnum"⟩,
       ⟨"acChargingParameters", true, false, .struct "v2.ACChargingParameters"⟩,
       ⟨"derChargingParameters", true, false, .struct "v2.DERChargingParameters"⟩,
       ⟨"evEnergyOffer", true, false, .struct "v2.EVEnergyOffer"⟩,
       ⟨"dcChargingParameters", true, false, .struct "v2.DCChargingParameters"⟩,
       ⟨"v2xChargingParameters", true, false, .struct "v2.V2XChargingParameters"⟩,
       ⟨"availableEnergyTransfer", true, true, .enum "v2.EnergyTransferModeEnum"⟩,
       ⟨"controlMode", true, false, .enum "v2.ControlModeEnum"⟩,
       ⟨"mobilityNeedsMode", true, false, .enum "v2.MobilityNeedsModeEnum"⟩,
       ⟨"departureTime", true, false, .time⟩,
       ⟨"customData", true, false, .json⟩],
    toJ :=
      [⟨"requestedEnergyTransfer", "requestedEnergyTransfer", false, false, (.enum "v2.EnergyTransferModeEnum")⟩,
       ⟨"acChargingParameters", "acChargingParameters", true, false, .plain⟩,
       ⟨"derChargingParameters", "derChargingParameters", true, false, .plain⟩,
       ⟨"evEnergyOffer", "evEnergyOffer", true, false, .plain⟩,
       ⟨"dcChargingParameters", "dcChargingParameters", true, false, .plain⟩,
       ⟨"v2xChargingParameters", "v2xChargingParameters", true, false, .plain⟩,
       ⟨"availableEnergyTransfer", "availableEnergyTransfer", true, true, (.enum "v2.EnergyTransferModeEnum")⟩,
       ⟨"controlMode", "controlMode", true, false, (.enum "v2.ControlModeEnum")⟩,
       ⟨"mobilityNeedsMode", "mobilityNeedsMode", true, false, (.enum "v2.MobilityNeedsModeEnum")⟩,
       ⟨"departureTime", "departureTime", true, false, .time⟩,
       ⟨"customData", "customData", true, false, .plain⟩],
    fromJ :=
      [⟨"requestedEnergyTransfer", "requestedEnergyTransfer", false, false, (.enum "v2.EnergyTransferModeEnum")⟩,
       ⟨"acChargingParameters", "acChargingParameters", true, false, .plain⟩,
       ⟨"derChargingParameters", "derChargingParameters", true, false, .plain⟩,
       ⟨"evEnergyOffer", "evEnergyOffer", true, false, .plain⟩,
       ⟨"dcChargingParameters", "dcChargingParameters", true, false, .plain⟩,
       ⟨"v2xChargingParameters", "v2xChargingParameters", true, false, .plain⟩,
       ⟨"availableEnergyTransfer", "availableEnergyTransfer", true, true, (.enum "v2.EnergyTransferModeEnum")⟩,
       ⟨"controlMode", "controlMode", true, false, (.enum "v2.ControlModeEnum")⟩,
       ⟨"mobilityNeedsMode", "mobilityNeedsMode", true, false, (.enum "v2.MobilityNeedsModeEnum")⟩,
       ⟨"departureTime", "departureTime", true, false, .time⟩,
       ⟨"customData", "customData", true, false, .plain⟩] }

/-- `EventData`, include/ocpp/v2/ocpp_types.hpp l.1397; `to_json`, lib/ocpp/v2/ocpp_types.cpp l.4129-4165; `from_json`, l.4168-4203. -/
def t_v2_EventData : TypeTable :=
  { name := "v2.EventData",
    fields :=
      [⟨"eventId", false, false, .int⟩,
       ⟨"timestamp", false, false, .time⟩,
       ⟨"trigger", false, false, .enum "v2.EventTriggerEnum"⟩,
       ⟨"actualValue", false, false, .str (some 2500)⟩,
       ⟨"component", false, false, .struct "v2.Component"⟩,
       ⟨"eventNotificationType", false, false, .enum "v2.EventNotificationEnum"⟩,
       ⟨"variable", false, false, .struct "v2.Variable"⟩,
       ⟨"cause", true, false, .int⟩,
       ⟨"techCode", true, false, .str (some 50)⟩,
       ⟨"techInfo", true, false, .str (some 500)⟩,
       ⟨"cleared", true, false, .bool⟩,
       ⟨"transactionId", true, false, .str (some 36)⟩,
       ⟨"variableMonitoringId", true, false, .int⟩,
       ⟨"severity", true, false, .int⟩,
       ⟨"customData", true, false, .json⟩],
    toJ :=
      [⟨"eventId", "eventId", false, false, .plain⟩,
       ⟨"timestamp", "timestamp", false, false, .time⟩,
       ⟨"trigger", "trigger", false, false, (.enum "v2.EventTriggerEnum")⟩,
       ⟨"actualValue", "actualValue", false, false, .plain⟩,
       ⟨"component", "component", false, false, .plain⟩,
       ⟨"eventNotificationType", "eventNotificationType", false, false, (.enum "v2.EventNotificationEnum")⟩,
       ⟨"variable", "variable", false, false, .plain⟩,
       ⟨"cause", "cause", true, false, .plain⟩,
       ⟨"techCode", "techCode", true, false, .plain⟩,
       ⟨"techInfo", "techInfo", true, false, .plain⟩,
       ⟨"cleared", "cleared", true, false, .plain⟩,
       ⟨"transactionId", "transactionId", true, false, .plain⟩,
       ⟨"variableMonitoringId", "variableMonitoringId", true, false, .plain⟩,
       ⟨"severity", "severity", true, false, .plain⟩,
       ⟨"customData", "customData", true, false, .plain⟩],
    fromJ :=
      [⟨"eventId", "eventId", false, false, .plain⟩,
       ⟨"timestamp", "timestamp", false, false, .time⟩,
       ⟨"trigger", "trigger", false, false, (.enum "v2.EventTriggerEnum")⟩,
       ⟨"actualValue", "actualValue", false, false, .plain⟩,
       ⟨"component", "component", false, false, .plain⟩,
       ⟨"eventNotificationType", "eventNotificationType", false, false, (.enum "v2.EventNotificationEnum")⟩,
       ⟨"variable", "variable", false, false, .plain⟩,
       ⟨"cause", "cause", true, false, .plain⟩,
       ⟨"techCode", "techCode", true, false, .plain⟩,
       ⟨"techInfo", "techInfo", true, false, .plain⟩,
       ⟨"cleared", "cleared", true, false, .plain⟩,
       ⟨"transactionId", "transactionId", true, false, .plain⟩,
       ⟨"variableMonitoringId", "variableMonitoringId", true, false, .plain⟩,
       ⟨"severity", "severity", true, false, .plain⟩,
       ⟨"customData", "customData", true, false, .plain⟩] }

/-- `VariableMonitoring`, include/ocpp/v2/ocpp_types.hpp l.1424; `to_json`, lib/ocpp/v2/ocpp_types.cpp l.4213-4229; `from_json`, l.4232-4247. -/
def t_v2_VariableMonitoring : TypeTable :=
  { name := "v2.VariableMonitoring",
    fields :=
      [⟨"id", false, false, .int⟩,
       ⟨"transaction", false, false, .bool⟩,
       ⟨"value", false, false, .num⟩,
       ⟨"type", false, false, .enum "v2.MonitorEnum"⟩,
       ⟨"severity", false, false, .int⟩,
       ⟨"eventNotificationType", true, false, .enum "v2.EventNotificationEnum"⟩,
       ⟨"customData", true, false, .json⟩],
    toJ :=
      [⟨"id", "id", false, false, .plain⟩,
       ⟨"transaction", "transaction", false, false, .plain⟩,
       ⟨"value", "value", false, false, .plain⟩,
       ⟨"type", "type", false, false, (.enum "v2.MonitorEnum")⟩,
       ⟨"severity", "severity", false, false, .plain⟩,
       ⟨"eventNotificationType", "eventNotificationType", true, false, (.enum "v2.EventNotificationEnum")⟩,
       ⟨"customData", "customData", true, false, .plain⟩],
    fromJ :=
      [⟨"id", "id", false, false, .plain⟩,
       ⟨"transaction", "transaction", false, false, .plain⟩,
       ⟨"value", "value", false, false, .plain⟩,
       ⟨"type", "type", false, false, (.enum "v2.MonitorEnum")⟩,
       ⟨"severity", "severity", false, false, .plain⟩,
       ⟨"eventNotificationType", "eventNotificationType", true, false, (.enum "v2.EventNotificationEnum")⟩,
       ⟨"customData", "customData", true, false, .plain⟩] }

/-- `MonitoringData`, include/ocpp/v2/ocpp_types.hpp l.1443; `to_json`, lib/ocpp/v2/ocpp_types.cpp l.4257-4268; `from_json`, l.4271-4283. -/
def t_v2_MonitoringData : TypeTable :=
  { name := "v2.MonitoringData",
    fields :=
      [⟨"component", false, false, .struct "v2.Component"⟩,
       ⟨"variable", false, false, .struct "v2.Variable"⟩,
       ⟨"variableMonitoring", false, true, .struct "v2.VariableMonitoring"⟩,
       ⟨"customData", true, false, .json⟩],
    toJ :=
      [⟨"component", "component", false, false, .plain⟩,
       ⟨"variable", "variable", false, false, .plain⟩,
       ⟨"variableMonitoring", "variableMonitoring", false, false, .plain⟩,
       ⟨"customData", "customData", true, false, .plain⟩],
    fromJ :=
      [⟨"component", "component", false, false, .plain⟩,
       ⟨"variable", "variable", false, false, .plain⟩,
       ⟨"variableMonitoring", "variableMonitoring", false, true, .plain⟩,
       ⟨"customData", "customData", true, false, .plain⟩] }

/-- `StreamDataElement`, include/ocpp/v2/ocpp_types.hpp l.1459; `to_json`, lib/ocpp/v2/ocpp_types.cpp l.4293-4303; `from_json`, l.4306-4315. -/
def t_v2_StreamDataElement : TypeTable :=
  { name := "v2.StreamDataElement",
    fields :=
      [⟨"t", false, false, .num⟩,
       ⟨"v", false, false, .str (some 2500)⟩,
       ⟨"customData", true, false, .json⟩],
    toJ :=
      [⟨"t", "t", false, false, .plain⟩,
       ⟨"v", "v", false, false, .plain⟩,
       ⟨"customData", "customData", true, false, .plain⟩],
    fromJ :=
      [⟨"t", "t", false, false, .plain⟩,
       ⟨"v", "v", false, false, .plain⟩,
       ⟨"customData", "customData", true, false, .plain⟩] }

/-- `NotifyPeriodicEventStream`, include/ocpp/v2/ocpp_types.hpp l.1474; `to_json`, lib/ocpp/v2/ocpp_types.cpp l.4325-4337; `from_json`, l.4340-4353. -/
def t_v2_NotifyPeriodicEventStream : TypeTable :=
  { name := "v2.NotifyPeriodicEventStream",
    fields :=
      [⟨"data", false, true, .struct "v2.StreamDataElement"⟩,
       ⟨"id", false, false, .int⟩,
       ⟨"pending", false, false, .int⟩,
       ⟨"basetime", false, false, .time⟩,
       ⟨"customData", true, false, .json⟩],
    toJ :=
      [⟨"data", "data", false, false, .plain⟩,
       ⟨"id", "id", false, false, .plain⟩,
       ⟨"pending", "pending", false, false, .plain⟩,
       ⟨"basetime", "basetime", false, false, .time⟩,
       ⟨"customData", "customData", true, false, .plain⟩],
    fromJ :=
      [⟨"data", "data", false, true, .plain⟩,
       ⟨"id", "id", false, false, .plain⟩,
       ⟨"pending", "pending", false, false, .plain⟩,
       ⟨"basetime", "basetime", false, false, .time⟩,
       ⟨"customData", "customData", true, false, .plain⟩] }

/-- `VariableAttribute`, include/ocpp/v2/ocpp_types.hpp l.1491; `to_json`, lib/ocpp/v2/ocpp_types.cpp l.4363-4385; `from_json`, l.4388-4426. -/
def t_v2_VariableAttribute : TypeTable :=
  { name := "v2.VariableAttribute",
    fields :=
      [⟨"type", true, false, .enum "v2.AttributeEnum"⟩,
       ⟨"value", true, false, .str (some 2500)⟩,
       ⟨"mutability", true, false, .enum "v2.MutabilityEnum"⟩,
       ⟨"persistent", true, false, .bool⟩,
       ⟨"constant", true, false, .bool⟩,
       ⟨"customData", true, false, .json⟩],
    toJ :=
      [⟨"type", "type", true, false, (.enum "v2.AttributeEnum")⟩,
       ⟨"value", "value", true, false, .plain⟩,
       ⟨"mutability", "mutability", true, false, (.enum "v2.MutabilityEnum")⟩,
       ⟨"persistent", "persistent", true, false, .plain⟩,
       ⟨"constant", "constant", true, false, .plain⟩,
       ⟨"customData", "customData", true, false, .plain⟩],
    fromJ :=
      [⟨"type", "type", true, false, (.enum "v2.AttributeEnum")⟩,
       ⟨"value", "value", true, false, .lenient⟩,
       ⟨"mutability", "mutability", true, false, (.enum "v2.MutabilityEnum")⟩,
       ⟨"persistent", "persistent", true, false, .plain⟩,
       ⟨"constant", "constant", true, false, .plain⟩,
       ⟨"customData", "customData", true, false, .plain⟩] }

/-- `VariableCharacteristics`, include/ocpp/v2/ocpp_types.hpp l.1509; `to_json`, lib/ocpp/v2/ocpp_types.cpp l.4436-4461; `from_json`, l.4464-4488. -/
def t_v2_VariableCharacteristics : TypeTable :=
  { name := "v2.VariableCharacteristics",
    fields :=
      [⟨"dataType", false, false, .enum "v2.DataEnum"⟩,
       ⟨"supportsMonitoring", false, false, .bool⟩,
       ⟨"unit", true, false, .str (some 16)⟩,
       ⟨"minLimit", true, false, .num⟩,
       ⟨"maxLimit", true, false, .num⟩,
       ⟨"maxElements", true, false, .int⟩,
       ⟨"valuesList", true, false, .str (some 1000)⟩,
       ⟨"customData", true, false, .json⟩],
    toJ :=
      [⟨"dataType", "dataType", false, false, (.enum "v2.DataEnum")⟩,
       ⟨"supportsMonitoring", "supportsMonitoring", false, false, .plain⟩,
       ⟨"unit", "unit", true, false, .plain⟩,
       ⟨"minLimit", "minLimit", true, false, .plain⟩,
       ⟨"maxLimit", "maxLimit", true, false, .plain⟩,
       ⟨"maxElements", "maxElements", true, false, .plain⟩,
       ⟨"valuesList", "valuesList", true, false, .plain⟩,
       ⟨"customData", "customData", true, false, .plain⟩],
    fromJ :=
      [⟨"dataType", "dataType", false, false, (.enum "v2.DataEnum")⟩,
       ⟨"supportsMonitoring", "supportsMonitoring", false, false, .plain⟩,
       ⟨"unit", "unit", true, false, .plain⟩,
       ⟨"minLimit", "minLimit", true, false, .plain⟩,
       ⟨"maxLimit", "maxLimit", true, false, .plain⟩,
       ⟨"maxElements", "maxElements", true, false, .plain⟩,
       ⟨"valuesList", "valuesList", true, false, .plain⟩,
       ⟨"customData", "customData", true, false, .plain⟩] }

/-- `ReportData`, include/ocpp/v2/ocpp_types.hpp l.1529; `to_json`, lib/ocpp/v2/ocpp_types.cpp l.4498-4512; `from_json`, l.4515-4530. -/
def t_v2_ReportData : TypeTable :=
  { name := "v2.ReportData",
    fields :=
      [⟨"component", false, false, .struct "v2.Component"⟩,
       ⟨"variable", false, false, .struct "v2.Variable"⟩,
       ⟨"variableAttribute", false, true, .struct "v2.VariableAttribute"⟩,
       ⟨"variableCharacteristics", true, false, .struct "v2.VariableCharacteristics"⟩,
       ⟨"customData", true, false, .json⟩],
    toJ :=
      [⟨"component", "component", false, false, .plain⟩,
       ⟨"variable", "variable", false, false, .plain⟩,
       ⟨"variableAttribute", "variableAttribute", false, false, .plain⟩,
       ⟨"variableCharacteristics", "variableCharacteristics", true, false, .plain⟩,
       ⟨"customData", "customData", true, false, .plain⟩],
    fromJ :=
      [⟨"component", "component", false, false, .plain⟩,
       ⟨"variable", "variable", false, false, .plain⟩,
       ⟨"variableAttribute", "variableAttribute", false, true, .plain⟩,
       ⟨"variableCharacteristics", "variableCharacteristics", true, false, .plain⟩,
       ⟨"customData", "customData", true, false, .plain⟩] }

/-- All of them. -/
def typesV2a : List TypeTable :=
  [t_v2_StatusInfo, t_v2_PeriodicEventStreamParams, t_v2_AdditionalInfo, t_v2_IdToken, t_v2_OCSPRequestData, t_v2_MessageContent, t_v2_IdTokenInfo,
   t_v2_TariffConditions, t_v2_TariffEnergyPrice, t_v2_TaxRate, t_v2_TariffEnergy, t_v2_TariffTimePrice, t_v2_TariffTime, t_v2_TariffConditionsFixed,
   t_v2_TariffFixedPrice, t_v2_TariffFixed, t_v2_Price, t_v2_Tariff, t_v2_BatteryData, t_v2_Modem, t_v2_ChargingStation, t_v2_EVSE,
   t_v2_ClearChargingProfile, t_v2_ClearTariffsResult, t_v2_ClearMonitoringResult, t_v2_CertificateHashDataType, t_v2_CertificateStatusRequestInfo,
   t_v2_CertificateStatus, t_v2_ChargingProfileCriterion, t_v2_V2XFreqWattPoint, t_v2_V2XSignalWattPoint, t_v2_ChargingSchedulePeriod,
   t_v2_CompositeSchedule, t_v2_CertificateHashDataChain, t_v2_LogParameters, t_v2_Component, t_v2_Variable, t_v2_ComponentVariable,
   t_v2_ConstantStreamData, t_v2_TariffAssignment, t_v2_GetVariableData, t_v2_GetVariableResult, t_v2_SignedMeterValue, t_v2_UnitOfMeasure,
   t_v2_SampledValue, t_v2_MeterValue, t_v2_LimitAtSoC, t_v2_RelativeTimeInterval, t_v2_Cost, t_v2_ConsumptionCost, t_v2_SalesTariffEntry,
   t_v2_SalesTariff, t_v2_RationalNumber, t_v2_PriceRule, t_v2_PriceRuleStack, t_v2_TaxRule, t_v2_OverstayRule, t_v2_OverstayRuleList,
   t_v2_AdditionalSelectedServices, t_v2_AbsolutePriceSchedule, t_v2_PriceLevelScheduleEntry, t_v2_PriceLevelSchedule, t_v2_ChargingSchedule,
   t_v2_ChargingLimit, t_v2_MessageInfo, t_v2_ACChargingParameters, t_v2_DERChargingParameters, t_v2_EVPriceRule, t_v2_EVAbsolutePriceScheduleEntry,
   t_v2_EVAbsolutePriceSchedule, t_v2_EVPowerScheduleEntry, t_v2_EVPowerSchedule, t_v2_EVEnergyOffer, t_v2_DCChargingParameters,
   t_v2_V2XChargingParameters, t_v2_ChargingNeeds, t_v2_EventData, t_v2_VariableMonitoring, t_v2_MonitoringData, t_v2_StreamDataElement,
   t_v2_NotifyPeriodicEventStream, t_v2_VariableAttribute, t_v2_VariableCharacteristics, t_v2_ReportData]

end Verif.Wire
