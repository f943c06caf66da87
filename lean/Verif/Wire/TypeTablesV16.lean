import Verif.Wire.TypeModel

/-!
Generated from the declarations and conversions of the structs of OCPP 1.6, by a script that reads the text of the cited files: the members
declared in the header ⟨name, optional, vector, type⟩, and the statements of `to_json` and of `from_json` ⟨key, member, under `if`, in a loop, conversion⟩.
-/

namespace Verif.Wire

/-- `IdTagInfo`, include/ocpp/v16/ocpp_types.hpp l.19; `to_json`, lib/ocpp/v16/ocpp_types.cpp l.19-31; `from_json`, l.34-45. -/
def t_v16_IdTagInfo : TypeTable :=
  { name := "v16.IdTagInfo",
    fields :=
      [⟨"status", false, false, .enum "v16.AuthorizationStatus"⟩,
       ⟨"expiryDate", true, false, .time⟩,
       ⟨"parentIdTag", true, false, .str (some 20)⟩],
    toJ :=
      [⟨"status", "status", false, false, (.enum "v16.AuthorizationStatus")⟩,
       ⟨"expiryDate", "expiryDate", true, false, .time⟩,
       ⟨"parentIdTag", "parentIdTag", true, false, .plain⟩],
    fromJ :=
      [⟨"status", "status", false, false, (.enum "v16.AuthorizationStatus")⟩,
       ⟨"expiryDate", "expiryDate", true, false, .time⟩,
       ⟨"parentIdTag", "parentIdTag", true, false, .plain⟩] }

/-- `CertificateHashDataType`, include/ocpp/v16/ocpp_types.hpp l.34; `to_json`, lib/ocpp/v16/ocpp_types.cpp l.55-64; `from_json`, l.67-75. -/
def t_v16_CertificateHashDataType : TypeTable :=
  { name := "v16.CertificateHashDataType",
    fields :=
      [⟨"hashAlgorithm", false, false, .enum "v16.HashAlgorithmEnumType"⟩,
       ⟨"issuerNameHash", false, false, .str (some 128)⟩,
       ⟨"issuerKeyHash", false, false, .str (some 128)⟩,
       ⟨"serialNumber", false, false, .str (some 40)⟩],
    toJ :=
      [⟨"hashAlgorithm", "hashAlgorithm", false, false, (.enum "v16.HashAlgorithmEnumType")⟩,
       ⟨"issuerNameHash", "issuerNameHash", false, false, .plain⟩,
       ⟨"issuerKeyHash", "issuerKeyHash", false, false, .plain⟩,
       ⟨"serialNumber", "serialNumber", false, false, .plain⟩],
    fromJ :=
      [⟨"hashAlgorithm", "hashAlgorithm", false, false, (.enum "v16.HashAlgorithmEnumType")⟩,
       ⟨"issuerNameHash", "issuerNameHash", false, false, .plain⟩,
       ⟨"issuerKeyHash", "issuerKeyHash", false, false, .plain⟩,
       ⟨"serialNumber", "serialNumber", false, false, .plain⟩] }

/-- `ChargingSchedulePeriod`, include/ocpp/v16/ocpp_types.hpp l.50; `to_json`, lib/ocpp/v16/ocpp_types.cpp l.85-95; `from_json`, l.98-107. -/
def t_v16_ChargingSchedulePeriod : TypeTable :=
  { name := "v16.ChargingSchedulePeriod",
    fields :=
      [⟨"startPeriod", false, false, .int⟩,
       ⟨"limit", false, false, .num⟩,
       ⟨"numberPhases", true, false, .int⟩],
    toJ :=
      [⟨"startPeriod", "startPeriod", false, false, .plain⟩,
       ⟨"limit", "limit", false, false, .plain⟩,
       ⟨"numberPhases", "numberPhases", true, false, .plain⟩],
    fromJ :=
      [⟨"startPeriod", "startPeriod", false, false, .plain⟩,
       ⟨"limit", "limit", false, false, .plain⟩,
       ⟨"numberPhases", "numberPhases", true, false, .plain⟩] }

/-- `ChargingSchedule`, include/ocpp/v16/ocpp_types.hpp l.65; `to_json`, lib/ocpp/v16/ocpp_types.cpp l.117-133; `from_json`, l.136-153. -/
def t_v16_ChargingSchedule : TypeTable :=
  { name := "v16.ChargingSchedule",
    fields :=
      [⟨"chargingRateUnit", false, false, .enum "v16.ChargingRateUnit"⟩,
       ⟨"chargingSchedulePeriod", false, true, .struct "v16.ChargingSchedulePeriod"⟩,
       ⟨"duration", true, false, .int⟩,
       ⟨"startSchedule", true, false, .time⟩,
       ⟨"minChargingRate", true, false, .num⟩],
    toJ :=
      [⟨"chargingRateUnit", "chargingRateUnit", false, false, (.enum "v16.ChargingRateUnit")⟩,
       ⟨"chargingSchedulePeriod", "chargingSchedulePeriod", false, false, .plain⟩,
       ⟨"duration", "duration", true, false, .plain⟩,
       ⟨"startSchedule", "startSchedule", true, false, .time⟩,
       ⟨"minChargingRate", "minChargingRate", true, false, .plain⟩],
    fromJ :=
      [⟨"chargingRateUnit", "chargingRateUnit", false, false, (.enum "v16.ChargingRateUnit")⟩,
       ⟨"chargingSchedulePeriod", "chargingSchedulePeriod", false, true, .plain⟩,
       ⟨"duration", "duration", true, false, .plain⟩,
       ⟨"startSchedule", "startSchedule", true, false, .time⟩,
       ⟨"minChargingRate", "minChargingRate", true, false, .plain⟩] }

/-- `KeyValue`, include/ocpp/v16/ocpp_types.hpp l.82; `to_json`, lib/ocpp/v16/ocpp_types.cpp l.163-173; `from_json`, l.176-185. -/
def t_v16_KeyValue : TypeTable :=
  { name := "v16.KeyValue",
    fields :=
      [⟨"key", false, false, .str (some 50)⟩,
       ⟨"readonly", false, false, .bool⟩,
       ⟨"value", true, false, .str (some 500)⟩],
    toJ :=
      [⟨"key", "key", false, false, .plain⟩,
       ⟨"readonly", "readonly", false, false, .plain⟩,
       ⟨"value", "value", true, false, .plain⟩],
    fromJ :=
      [⟨"key", "key", false, false, .plain⟩,
       ⟨"readonly", "readonly", false, false, .plain⟩,
       ⟨"value", "value", true, false, .plain⟩] }

/-- `LogParametersType`, include/ocpp/v16/ocpp_types.hpp l.97; `to_json`, lib/ocpp/v16/ocpp_types.cpp l.195-207; `from_json`, l.210-221. -/
def t_v16_LogParametersType : TypeTable :=
  { name := "v16.LogParametersType",
    fields :=
      [⟨"remoteLocation", false, false, .str (some 512)⟩,
       ⟨"oldestTimestamp", true, false, .time⟩,
       ⟨"latestTimestamp", true, false, .time⟩],
    toJ :=
      [⟨"remoteLocation", "remoteLocation", false, false, .plain⟩,
       ⟨"oldestTimestamp", "oldestTimestamp", true, false, .time⟩,
       ⟨"latestTimestamp", "latestTimestamp", true, false, .time⟩],
    fromJ :=
      [⟨"remoteLocation", "remoteLocation", false, false, .plain⟩,
       ⟨"oldestTimestamp", "oldestTimestamp", true, false, .time⟩,
       ⟨"latestTimestamp", "latestTimestamp", true, false, .time⟩] }

/-- `SampledValue`, include/ocpp/v16/ocpp_types.hpp l.112; `to_json`, lib/ocpp/v16/ocpp_types.cpp l.231-255; `from_json`, l.258-281. -/
def t_v16_SampledValue : TypeTable :=
  { name := "v16.SampledValue",
    fields :=
      [⟨"value", false, false, .str none⟩,
       ⟨"context", true, false, .enum "v16.ReadingContext"⟩,
       ⟨"format", true, false, .enum "v16.ValueFormat"⟩,
       ⟨"measurand", true, false, .enum "v16.Measurand"⟩,
       ⟨"phase", true, false, .enum "v16.Phase"⟩,
       ⟨"location", true, false, .enum "v16.Location"⟩,
       ⟨"unit", true, false, .enum "v16.UnitOfMeasure"⟩],
    toJ :=
      [⟨"value", "value", false, false, .plain⟩,
       ⟨"context", "context", true, false, (.enum "v16.ReadingContext")⟩,
       ⟨"format", "format", true, false, (.enum "v16.ValueFormat")⟩,
       ⟨"measurand", "measurand", true, false, (.enum "v16.Measurand")⟩,
       ⟨"phase", "phase", true, false, (.enum "v16.Phase")⟩,
       ⟨"location", "location", true, false, (.enum "v16.Location")⟩,
       ⟨"unit", "unit", true, false, (.enum "v16.UnitOfMeasure")⟩],
    fromJ :=
      [⟨"value", "value", false, false, .plain⟩,
       ⟨"context", "context", true, false, (.enum "v16.ReadingContext")⟩,
       ⟨"format", "format", true, false, (.enum "v16.ValueFormat")⟩,
       ⟨"measurand", "measurand", true, false, (.enum "v16.Measurand")⟩,
       ⟨"phase", "phase", true, false, (.enum "v16.Phase")⟩,
       ⟨"location", "location", true, false, (.enum "v16.Location")⟩,
       ⟨"unit", "unit", true, false, (.enum "v16.UnitOfMeasure")⟩] }

/-- `MeterValue`, include/ocpp/v16/ocpp_types.hpp l.131; `to_json`, lib/ocpp/v16/ocpp_types.cpp l.291-298; `from_json`, l.301-309. -/
def t_v16_MeterValue : TypeTable :=
  { name := "v16.MeterValue",
    fields :=
      [⟨"timestamp", false, false, .time⟩,
       ⟨"sampledValue", false, true, .struct "v16.SampledValue"⟩],
    toJ :=
      [⟨"timestamp", "timestamp", false, false, .time⟩,
       ⟨"sampledValue", "sampledValue", false, false, .plain⟩],
    fromJ :=
      [⟨"timestamp", "timestamp", false, false, .time⟩,
       ⟨"sampledValue", "sampledValue", false, true, .plain⟩] }

/-- `ChargingProfile`, include/ocpp/v16/ocpp_types.hpp l.145; `to_json`, lib/ocpp/v16/ocpp_types.cpp l.319-341; `from_json`, l.344-365. -/
def t_v16_ChargingProfile : TypeTable :=
  { name := "v16.ChargingProfile",
    fields :=
      [⟨"chargingProfileId", false, false, .int⟩,
       ⟨"stackLevel", false, false, .int⟩,
       ⟨"chargingProfilePurpose", false, false, .enum "v16.ChargingProfilePurposeType"⟩,
       ⟨"chargingProfileKind", false, false, .enum "v16.ChargingProfileKindType"⟩,
       ⟨"chargingSchedule", false, false, .struct "v16.ChargingSchedule"⟩,
       ⟨"transactionId", true, false, .int⟩,
       ⟨"recurrencyKind", true, false, .enum "v16.RecurrencyKindType"⟩,
       ⟨"validFrom", true, false, .time⟩,
       ⟨"validTo", true, false, .time⟩],
    toJ :=
      [⟨"chargingProfileId", "chargingProfileId", false, false, .plain⟩,
       ⟨"stackLevel", "stackLevel", false, false, .plain⟩,
       ⟨"chargingProfilePurpose", "chargingProfilePurpose", false, false, (.enum "v16.ChargingProfilePurposeType")⟩,
       ⟨"chargingProfileKind", "chargingProfileKind", false, false, (.enum "v16.ChargingProfileKindType")⟩,
       ⟨"chargingSchedule", "chargingSchedule", false, false, .plain⟩,
       ⟨"transactionId", "transactionId", true, false, .plain⟩,
       ⟨"recurrencyKind", "recurrencyKind", true, false, (.enum "v16.RecurrencyKindType")⟩,
       ⟨"validFrom", "validFrom", true, false, .time⟩,
       ⟨"validTo", "validTo", true, false, .time⟩],
    fromJ :=
      [⟨"chargingProfileId", "chargingProfileId", false, false, .plain⟩,
       ⟨"stackLevel", "stackLevel", false, false, .plain⟩,
       ⟨"chargingProfilePurpose", "chargingProfilePurpose", false, false, (.enum "v16.ChargingProfilePurposeType")⟩,
       ⟨"chargingProfileKind", "chargingProfileKind", false, false, (.enum "v16.ChargingProfileKindType")⟩,
       ⟨"chargingSchedule", "chargingSchedule", false, false, .plain⟩,
       ⟨"transactionId", "transactionId", true, false, .plain⟩,
       ⟨"recurrencyKind", "recurrencyKind", true, false, (.enum "v16.RecurrencyKindType")⟩,
       ⟨"validFrom", "validFrom", true, false, .time⟩,
       ⟨"validTo", "validTo", true, false, .time⟩] }

/-- `LocalAuthorizationList`, include/ocpp/v16/ocpp_types.hpp l.166; `to_json`, lib/ocpp/v16/ocpp_types.cpp l.375-384; `from_json`, l.387-395. -/
def t_v16_LocalAuthorizationList : TypeTable :=
  { name := "v16.LocalAuthorizationList",
    fields :=
      [⟨"idTag", false, false, .str (some 20)⟩,
       ⟨"idTagInfo", true, false, .struct "v16.IdTagInfo"⟩],
    toJ :=
      [⟨"idTag", "idTag", false, false, .plain⟩,
       ⟨"idTagInfo", "idTagInfo", true, false, .plain⟩],
    fromJ :=
      [⟨"idTag", "idTag", false, false, .plain⟩,
       ⟨"idTagInfo", "idTagInfo", true, false, .plain⟩] }

/-- `FirmwareType`, include/ocpp/v16/ocpp_types.hpp l.180; `to_json`, lib/ocpp/v16/ocpp_types.cpp l.405-417; `from_json`, l.420-431. -/
def t_v16_FirmwareType : TypeTable :=
  { name := "v16.FirmwareType",
    fields :=
      [⟨"location", false, false, .str (some 512)⟩,
       ⟨"retrieveDateTime", false, false, .time⟩,
       ⟨"signingCertificate", false, false, .str (some 5500)⟩,
       ⟨"signature", false, false, .str (some 800)⟩,
       ⟨"installDateTime", true, false, .time⟩],
    toJ :=
      [⟨"location", "location", false, false, .plain⟩,
       ⟨"retrieveDateTime", "retrieveDateTime", false, false, .time⟩,
       ⟨"signingCertificate", "signingCertificate", false, false, .plain⟩,
       ⟨"signature", "signature", false, false, .plain⟩,
       ⟨"installDateTime", "installDateTime", true, false, .time⟩],
    fromJ :=
      [⟨"location", "location", false, false, .plain⟩,
       ⟨"retrieveDateTime", "retrieveDateTime", false, false, .time⟩,
       ⟨"signingCertificate", "signingCertificate", false, false, .plain⟩,
       ⟨"signature", "signature", false, false, .plain⟩,
       ⟨"installDateTime", "installDateTime", true, false, .time⟩] }

/-- `TransactionData`, include/ocpp/v16/ocpp_types.hpp l.197; `to_json`, lib/ocpp/v16/ocpp_types.cpp l.441-448; `from_json`, l.451-459. -/
def t_v16_TransactionData : TypeTable :=
  { name := "v16.TransactionData",
    fields :=
      [⟨"timestamp", false, false, .time⟩,
       ⟨"sampledValue", false, true, .struct "v16.SampledValue"⟩],
    toJ :=
      [⟨"timestamp", "timestamp", false, false, .time⟩,
       ⟨"sampledValue", "sampledValue", false, false, .plain⟩],
    fromJ :=
      [⟨"timestamp", "timestamp", false, false, .time⟩,
       ⟨"sampledValue", "sampledValue", false, true, .plain⟩] }

/-- `AuthorizeRequest`, include/ocpp/v16/messages/Authorize.hpp l.19; `to_json`, lib/ocpp/v16/messages/Authorize.cpp l.20-26; `from_json`, l.28-33. -/
def t_v16_AuthorizeRequest : TypeTable :=
  { name := "v16.AuthorizeRequest",
    fields :=
      [⟨"idTag", false, false, .str (some 20)⟩],
    toJ :=
      [⟨"idTag", "idTag", false, false, .plain⟩],
    fromJ :=
      [⟨"idTag", "idTag", false, false, .plain⟩] }

/-- `AuthorizeResponse`, include/ocpp/v16/messages/Authorize.hpp l.38; `to_json`, lib/ocpp/v16/messages/Authorize.cpp l.46-52; `from_json`, l.54-59. -/
def t_v16_AuthorizeResponse : TypeTable :=
  { name := "v16.AuthorizeResponse",
    fields :=
      [⟨"idTagInfo", false, false, .struct "v16.IdTagInfo"⟩],
    toJ :=
      [⟨"idTagInfo", "idTagInfo", false, false, .plain⟩],
    fromJ :=
      [⟨"idTagInfo", "idTagInfo", false, false, .plain⟩] }

/-- `BootNotificationRequest`, include/ocpp/v16/messages/BootNotification.hpp l.19; `to_json`, lib/ocpp/v16/messages/BootNotification.cpp l.20-48; `from_json`, l.50-77. -/
def t_v16_BootNotificationRequest : TypeTable :=
  { name := "v16.BootNotificationRequest",
    fields :=
      [⟨"chargePointVendor", false, false, .str (some 20)⟩,
       ⟨"chargePointModel", false, false, .str (some 20)⟩,
       ⟨"chargePointSerialNumber", true, false, .str (some 25)⟩,
       ⟨"chargeBoxSerialNumber", true, false, .str (some 25)⟩,
       ⟨"firmwareVersion", true, false, .str (some 50)⟩,
       ⟨"iccid", true, false, .str (some 20)⟩,
       ⟨"imsi", true, false, .str (some 20)⟩,
       ⟨"meterType", true, false, .str (some 25)⟩,
       ⟨"meterSerialNumber", true, false, .str (some 25)⟩],
    toJ :=
      [⟨"chargePointVendor", "chargePointVendor", false, false, .plain⟩,
       ⟨"chargePointModel", "chargePointModel", false, false, .plain⟩,
       ⟨"chargePointSerialNumber", "chargePointSerialNumber", true, false, .plain⟩,
       ⟨"chargeBoxSerialNumber", "chargeBoxSerialNumber", true, false, .plain⟩,
       ⟨"firmwareVersion", "firmwareVersion", true, false, .plain⟩,
       ⟨"iccid", "iccid", true, false, .plain⟩,
       ⟨"imsi", "imsi", true, false, .plain⟩,
       ⟨"meterType", "meterType", true, false, .plain⟩,
       ⟨"meterSerialNumber", "meterSerialNumber", true, false, .plain⟩],
    fromJ :=
      [⟨"chargePointVendor", "chargePointVendor", false, false, .plain⟩,
       ⟨"chargePointModel", "chargePointModel", false, false, .plain⟩,
       ⟨"chargePointSerialNumber", "chargePointSerialNumber", true, false, .plain⟩,
       ⟨"chargeBoxSerialNumber", "chargeBoxSerialNumber", true, false, .plain⟩,
       ⟨"firmwareVersion", "firmwareVersion", true, false, .plain⟩,
       ⟨"iccid", "iccid", true, false, .plain⟩,
       ⟨"imsi", "imsi", true, false, .plain⟩,
       ⟨"meterType", "meterType", true, false, .plain⟩,
       ⟨"meterSerialNumber", "meterSerialNumber", true, false, .plain⟩] }

/-- `BootNotificationResponse`, include/ocpp/v16/messages/BootNotification.hpp l.46; `to_json`, lib/ocpp/v16/messages/BootNotification.cpp l.90-98; `from_json`, l.100-107. -/
def t_v16_BootNotificationResponse : TypeTable :=
  { name := "v16.BootNotificationResponse",
    fields :=
      [⟨"status", false, false, .enum "v16.RegistrationStatus"⟩,
       ⟨"currentTime", false, false, .time⟩,
       ⟨"interval", false, false, .int⟩],
    toJ :=
      [⟨"status", "status", false, false, (.enum "v16.RegistrationStatus")⟩,
       ⟨"currentTime", "currentTime", false, false, .time⟩,
       ⟨"interval", "interval", false, false, .plain⟩],
    fromJ :=
      [⟨"status", "status", false, false, (.enum "v16.RegistrationStatus")⟩,
       ⟨"currentTime", "currentTime", false, false, .time⟩,
       ⟨"interval", "interval", false, false, .plain⟩] }

/-- `CancelReservationRequest`, include/ocpp/v16/messages/CancelReservation.hpp l.17; `to_json`, lib/ocpp/v16/messages/CancelReservation.cpp l.19-25; `from_json`, l.27-32. -/
def t_v16_CancelReservationRequest : TypeTable :=
  { name := "v16.CancelReservationRequest",
    fields :=
      [⟨"reservationId", false, false, .int⟩],
    toJ :=
      [⟨"reservationId", "reservationId", false, false, .plain⟩],
    fromJ :=
      [⟨"reservationId", "reservationId", false, false, .plain⟩] }

/-- `CancelReservationResponse`, include/ocpp/v16/messages/CancelReservation.hpp l.36; `to_json`, lib/ocpp/v16/messages/CancelReservation.cpp l.45-51; `from_json`, l.53-58. -/
def t_v16_CancelReservationResponse : TypeTable :=
  { name := "v16.CancelReservationResponse",
    fields :=
      [⟨"status", false, false, .enum "v16.CancelReservationStatus"⟩],
    toJ :=
      [⟨"status", "status", false, false, (.enum "v16.CancelReservationStatus")⟩],
    fromJ :=
      [⟨"status", "status", false, false, (.enum "v16.CancelReservationStatus")⟩] }

/-- `CertificateSignedRequest`, include/ocpp/v16/messages/CertificateSigned.hpp l.17; `to_json`, lib/ocpp/v16/messages/CertificateSigned.cpp l.19-25; `from_json`, l.27-32. -/
def t_v16_CertificateSignedRequest : TypeTable :=
  { name := "v16.CertificateSignedRequest",
    fields :=
      [⟨"certificateChain", false, false, .str (some 10000)⟩],
    toJ :=
      [⟨"certificateChain", "certificateChain", false, false, .plain⟩],
    fromJ :=
      [⟨"certificateChain", "certificateChain", false, false, .plain⟩] }

/-- `CertificateSignedResponse`, include/ocpp/v16/messages/CertificateSigned.hpp l.36; `to_json`, lib/ocpp/v16/messages/CertificateSigned.cpp l.45-51; `from_json`, l.53-58. -/
def t_v16_CertificateSignedResponse : TypeTable :=
  { name := "v16.CertificateSignedResponse",
    fields :=
      [⟨"status", false, false, .enum "v16.CertificateSignedStatusEnumType"⟩],
    toJ :=
      [⟨"status", "status", false, false, (.enum "v16.CertificateSignedStatusEnumType")⟩],
    fromJ :=
      [⟨"status", "status", false, false, (.enum "v16.CertificateSignedStatusEnumType")⟩] }

/-- `ChangeAvailabilityRequest`, include/ocpp/v16/messages/ChangeAvailability.hpp l.17; `to_json`, lib/ocpp/v16/messages/ChangeAvailability.cpp l.19-26; `from_json`, l.28-34. -/
def t_v16_ChangeAvailabilityRequest : TypeTable :=
  { name := "v16.ChangeAvailabilityRequest",
    fields :=
      [⟨"connectorId", false, false, .int⟩,
       ⟨"type", false, false, .enum "v16.AvailabilityType"⟩],
    toJ :=
      [⟨"connectorId", "connectorId", false, false, .plain⟩,
       ⟨"type", "type", false, false, (.enum "v16.AvailabilityType")⟩],
    fromJ :=
      [⟨"connectorId", "connectorId", false, false, .plain⟩,
       ⟨"type", "type", false, false, (.enum "v16.AvailabilityType")⟩] }

/-- `ChangeAvailabilityResponse`, include/ocpp/v16/messages/ChangeAvailability.hpp l.37; `to_json`, lib/ocpp/v16/messages/ChangeAvailability.cpp l.47-53; `from_json`, l.55-60. -/
def t_v16_ChangeAvailabilityResponse : TypeTable :=
  { name := "v16.ChangeAvailabilityResponse",
    fields :=
      [⟨"status", false, false, .enum "v16.AvailabilityStatus"⟩],
    toJ :=
      [⟨"status", "status", false, false, (.enum "v16.AvailabilityStatus")⟩],
    fromJ :=
      [⟨"status", "status", false, false, (.enum "v16.AvailabilityStatus")⟩] }

/-- `ChangeConfigurationRequest`, include/ocpp/v16/messages/ChangeConfiguration.hpp l.18; `to_json`, lib/ocpp/v16/messages/ChangeConfiguration.cpp l.19-26; `from_json`, l.28-34. -/
def t_v16_ChangeConfigurationRequest : TypeTable :=
  { name := "v16.ChangeConfigurationRequest",
    fields :=
      [⟨"key", false, false, .str (some 50)⟩,
       ⟨"value", false, false, .str (some 500)⟩],
    toJ :=
      [⟨"key", "key", false, false, .plain⟩,
       ⟨"value", "value", false, false, .plain⟩],
    fromJ :=
      [⟨"key", "key", false, false, .plain⟩,
       ⟨"value", "value", false, false, .plain⟩] }

/-- `ChangeConfigurationResponse`, include/ocpp/v16/messages/ChangeConfiguration.hpp l.39; `to_json`, lib/ocpp/v16/messages/ChangeConfiguration.cpp l.48-54; `from_json`, l.56-61. -/
def t_v16_ChangeConfigurationResponse : TypeTable :=
  { name := "v16.ChangeConfigurationResponse",
    fields :=
      [⟨"status", false, false, .enum "v16.ConfigurationStatus"⟩],
    toJ :=
      [⟨"status", "status", false, false, (.enum "v16.ConfigurationStatus")⟩],
    fromJ :=
      [⟨"status", "status", false, false, (.enum "v16.ConfigurationStatus")⟩] }

/-- `ClearCacheRequest`, include/ocpp/v16/messages/ClearCache.hpp l.17; `to_json`, lib/ocpp/v16/messages/ClearCache.cpp l.19-24; `from_json`, l.26-33. -/
def t_v16_ClearCacheRequest : TypeTable :=
  { name := "v16.ClearCacheRequest",
    fields := [],
    toJ := [],
    fromJ := [] }

/-- `ClearCacheResponse`, include/ocpp/v16/messages/ClearCache.hpp l.35; `to_json`, lib/ocpp/v16/messages/ClearCache.cpp l.46-52; `from_json`, l.54-59. -/
def t_v16_ClearCacheResponse : TypeTable :=
  { name := "v16.ClearCacheResponse",
    fields :=
      [⟨"status", false, false, .enum "v16.ClearCacheStatus"⟩],
    toJ :=
      [⟨"status", "status", false, false, (.enum "v16.ClearCacheStatus")⟩],
    fromJ :=
      [⟨"status", "status", false, false, (.enum "v16.ClearCacheStatus")⟩] }

/-- `ClearChargingProfileRequest`, include/ocpp/v16/messages/ClearChargingProfile.hpp l.18; `to_json`, lib/ocpp/v16/messages/ClearChargingProfile.cpp l.20-37; `from_json`, l.39-56. -/
def t_v16_ClearChargingProfileRequest : TypeTable :=
  { name := "v16.ClearChargingProfileRequest",
    fields :=
      [⟨"id", true, false, .int⟩,
       ⟨"connectorId", true, false, .int⟩,
       ⟨"chargingProfilePurpose", true, false, .enum "v16.ChargingProfilePurposeType"⟩,
       ⟨"stackLevel", true, false, .int⟩],
    toJ :=
      [⟨"id", "id", true, false, .plain⟩,
       ⟨"connectorId", "connectorId", true, false, .plain⟩,
       ⟨"chargingProfilePurpose", "chargingProfilePurpose", true, false, (.enum "v16.ChargingProfilePurposeType")⟩,
       ⟨"stackLevel", "stackLevel", true, false, .plain⟩],
    fromJ :=
      [⟨"id", "id", true, false, .plain⟩,
       ⟨"connectorId", "connectorId", true, false, .plain⟩,
       ⟨"chargingProfilePurpose", "chargingProfilePurpose", true, false, (.enum "v16.ChargingProfilePurposeType")⟩,
       ⟨"stackLevel", "stackLevel", true, false, .plain⟩] }

/-- `ClearChargingProfileResponse`, include/ocpp/v16/messages/ClearChargingProfile.hpp l.41; `to_json`, lib/ocpp/v16/messages/ClearChargingProfile.cpp l.70-76; `from_json`, l.78-83. -/
def t_v16_ClearChargingProfileResponse : TypeTable :=
  { name := "v16.ClearChargingProfileResponse",
    fields :=
      [⟨"status", false, false, .enum "v16.ClearChargingProfileStatus"⟩],
    toJ :=
      [⟨"status", "status", false, false, (.enum "v16.ClearChargingProfileStatus")⟩],
    fromJ :=
      [⟨"status", "status", false, false, (.enum "v16.ClearChargingProfileStatus")⟩] }

/-- `DataTransferRequest`, include/ocpp/v16/messages/DataTransfer.hpp l.19; `to_json`, lib/ocpp/v16/messages/DataTransfer.cpp l.20-32; `from_json`, l.34-45. -/
def t_v16_DataTransferRequest : TypeTable :=
  { name := "v16.DataTransferRequest",
    fields :=
      [⟨"vendorId", false, false, .str (some 255)⟩,
       ⟨"messageId", true, false, .str (some 50)⟩,
       ⟨"data", true, false, .str none⟩],
    toJ :=
      [⟨"vendorId", "vendorId", false, false, .plain⟩,
       ⟨"messageId", "messageId", true, false, .plain⟩,
       ⟨"data", "data", true, false, .plain⟩],
    fromJ :=
      [⟨"vendorId", "vendorId", false, false, .plain⟩,
       ⟨"messageId", "messageId", true, false, .plain⟩,
       ⟨"data", "data", true, false, .plain⟩] }

/-- `DataTransferResponse`, include/ocpp/v16/messages/DataTransfer.hpp l.40; `to_json`, lib/ocpp/v16/messages/DataTransfer.cpp l.58-67; `from_json`, l.69-77. -/
def t_v16_DataTransferResponse : TypeTable :=
  { name := "v16.DataTransferResponse",
    fields :=
      [⟨"status", false, false, .enum "v16.DataTransferStatus"⟩,
       ⟨"data", true, false, .str none⟩],
    toJ :=
      [⟨"status", "status", false, false, (.enum "v16.DataTransferStatus")⟩,
       ⟨"data", "data", true, false, .plain⟩],
    fromJ :=
      [⟨"status", "status", false, false, (.enum "v16.DataTransferStatus")⟩,
       ⟨"data", "data", true, false, .plain⟩] }

/-- `DeleteCertificateRequest`, include/ocpp/v16/messages/DeleteCertificate.hpp l.17; `to_json`, lib/ocpp/v16/messages/DeleteCertificate.cpp l.19-25; `from_json`, l.27-32. -/
def t_v16_DeleteCertificateRequest : TypeTable :=
  { name := "v16.DeleteCertificateRequest",
    fields :=
      [⟨"certificateHashData", false, false, .struct "v16.CertificateHashDataType"⟩],
    toJ :=
      [⟨"certificateHashData", "certificateHashData", false, false, .plain⟩],
    fromJ :=
      [⟨"certificateHashData", "certificateHashData", false, false, .plain⟩] }

/-- `DeleteCertificateResponse`, include/ocpp/v16/messages/DeleteCertificate.hpp l.36; `to_json`, lib/ocpp/v16/messages/DeleteCertificate.cpp l.45-51; `from_json`, l.53-58. -/
def t_v16_DeleteCertificateResponse : TypeTable :=
  { name := "v16.DeleteCertificateResponse",
    fields :=
      [⟨"status", false, false, .enum "v16.DeleteCertificateStatusEnumType"⟩],
    toJ :=
      [⟨"status", "status", false, false, (.enum "v16.DeleteCertificateStatusEnumType")⟩],
    fromJ :=
      [⟨"status", "status", false, false, (.enum "v16.DeleteCertificateStatusEnumType")⟩] }

/-- `DiagnosticsStatusNotificationRequest`, include/ocpp/v16/messages/DiagnosticsStatusNotification.hpp l.17; `to_json`, lib/ocpp/v16/messages/DiagnosticsStatusNotification.cpp l.19-25; `from_json`, l.27-32. -/
def t_v16_DiagnosticsStatusNotificationRequest : TypeTable :=
  { name := "v16.DiagnosticsStatusNotificationRequest",
    fields :=
      [⟨"status", false, false, .enum "v16.DiagnosticsStatus"⟩],
    toJ :=
      [⟨"status", "status", false, false, (.enum "v16.DiagnosticsStatus")⟩],
    fromJ :=
      [⟨"status", "status", false, false, (.enum "v16.DiagnosticsStatus")⟩] }

/-- `DiagnosticsStatusNotificationResponse`, include/ocpp/v16/messages/DiagnosticsStatusNotification.hpp l.37; `to_json`, lib/ocpp/v16/messages/DiagnosticsStatusNotification.cpp l.46-51; `from_json`, l.53-60. -/
def t_v16_DiagnosticsStatusNotificationResponse : TypeTable :=
  { name := "v16.DiagnosticsStatusNotificationResponse",
    fields := [],
    toJ := [],
    fromJ := [] }

/-- `ExtendedTriggerMessageRequest`, include/ocpp/v16/messages/ExtendedTriggerMessage.hpp l.18; `to_json`, lib/ocpp/v16/messages/ExtendedTriggerMessage.cpp l.20-29; `from_json`, l.31-39. -/
def t_v16_ExtendedTriggerMessageRequest : TypeTable :=
  { name := "v16.ExtendedTriggerMessageRequest",
    fields :=
      [⟨"requestedMessage", false, false, .enum "v16.MessageTriggerEnumType"⟩,
       ⟨"connectorId", true, false, .int⟩],
    toJ :=
      [⟨"requestedMessage", "requestedMessage", false, false, (.enum "v16.MessageTriggerEnumType")⟩,
       ⟨"connectorId", "connectorId", true, false, .plain⟩],
    fromJ :=
      [⟨"requestedMessage", "requestedMessage", false, false, (.enum "v16.MessageTriggerEnumType")⟩,
       ⟨"connectorId", "connectorId", true, false, .plain⟩] }

/-- `ExtendedTriggerMessageResponse`, include/ocpp/v16/messages/ExtendedTriggerMessage.hpp l.39; `to_json`, lib/ocpp/v16/messages/ExtendedTriggerMessage.cpp l.53-59; `from_json`, l.61-66. -/
def t_v16_ExtendedTriggerMessageResponse : TypeTable :=
  { name := "v16.ExtendedTriggerMessageResponse",
    fields :=
      [⟨"status", false, false, .enum "v16.TriggerMessageStatusEnumType"⟩],
    toJ :=
      [⟨"status", "status", false, false, (.enum "v16.TriggerMessageStatusEnumType")⟩],
    fromJ :=
      [⟨"status", "status", false, false, (.enum "v16.TriggerMessageStatusEnumType")⟩] }

/-- `FirmwareStatusNotificationRequest`, include/ocpp/v16/messages/FirmwareStatusNotification.hpp l.17; `to_json`, lib/ocpp/v16/messages/FirmwareStatusNotification.cpp l.19-25; `from_json`, l.27-32. -/
def t_v16_FirmwareStatusNotificationRequest : TypeTable :=
  { name := "v16.FirmwareStatusNotificationRequest",
    fields :=
      [⟨"status", false, false, .enum "v16.FirmwareStatus"⟩],
    toJ :=
      [⟨"status", "status", false, false, (.enum "v16.FirmwareStatus")⟩],
    fromJ :=
      [⟨"status", "status", false, false, (.enum "v16.FirmwareStatus")⟩] }

/-- `FirmwareStatusNotificationResponse`, include/ocpp/v16/messages/FirmwareStatusNotification.hpp l.37; `to_json`, lib/ocpp/v16/messages/FirmwareStatusNotification.cpp l.46-51; `from_json`, l.53-60. -/
def t_v16_FirmwareStatusNotificationResponse : TypeTable :=
  { name := "v16.FirmwareStatusNotificationResponse",
    fields := [],
    toJ := [],
    fromJ := [] }

/-- `GetCompositeScheduleRequest`, include/ocpp/v16/messages/GetCompositeSchedule.hpp l.18; `to_json`, lib/ocpp/v16/messages/GetCompositeSchedule.cpp l.20-30; `from_json`, l.32-41. -/
def t_v16_GetCompositeScheduleRequest : TypeTable :=
  { name := "v16.GetCompositeScheduleRequest",
    fields :=
      [⟨"connectorId", false, false, .int⟩,
       ⟨"duration", false, false, .int⟩,
       ⟨"chargingRateUnit", true, false, .enum "v16.ChargingRateUnit"⟩],
    toJ :=
      [⟨"connectorId", "connectorId", false, false, .plain⟩,
       ⟨"duration", "duration", false, false, .plain⟩,
       ⟨"chargingRateUnit", "chargingRateUnit", true, false, (.enum "v16.ChargingRateUnit")⟩],
    fromJ :=
      [⟨"connectorId", "connectorId", false, false, .plain⟩,
       ⟨"duration", "duration", false, false, .plain⟩,
       ⟨"chargingRateUnit", "chargingRateUnit", true, false, (.enum "v16.ChargingRateUnit")⟩] }

/-- `GetCompositeScheduleResponse`, include/ocpp/v16/messages/GetCompositeSchedule.hpp l.40; `to_json`, lib/ocpp/v16/messages/GetCompositeSchedule.cpp l.55-70; `from_json`, l.72-86. -/
def t_v16_GetCompositeScheduleResponse : TypeTable :=
  { name := "v16.GetCompositeScheduleResponse",
    fields :=
      [⟨"status", false, false, .enum "v16.GetCompositeScheduleStatus"⟩,
       ⟨"connectorId", true, false, .int⟩,
       ⟨"scheduleStart", true, false, .time⟩,
       ⟨"chargingSchedule", true, false, .struct "v16.ChargingSchedule"⟩],
    toJ :=
      [⟨"status", "status", false, false, (.enum "v16.GetCompositeScheduleStatus")⟩,
       ⟨"connectorId", "connectorId", true, false, .plain⟩,
       ⟨"scheduleStart", "scheduleStart", true, false, .time⟩,
       ⟨"chargingSchedule", "chargingSchedule", true, false, .plain⟩],
    fromJ :=
      [⟨"status", "status", false, false, (.enum "v16.GetCompositeScheduleStatus")⟩,
       ⟨"connectorId", "connectorId", true, false, .plain⟩,
       ⟨"scheduleStart", "scheduleStart", true, false, .time⟩,
       ⟨"chargingSchedule", "chargingSchedule", true, false, .plain⟩] }

/-- `GetConfigurationRequest`, include/ocpp/v16/messages/GetConfiguration.hpp l.18; `to_json`, lib/ocpp/v16/messages/GetConfiguration.cpp l.20-34; `from_json`, l.36-48. -/
def t_v16_GetConfigurationRequest : TypeTable :=
  { name := "v16.GetConfigurationRequest",
    fields :=
      [⟨"key", true, true, .str (some 50)⟩],
    toJ :=
      [⟨"key", "key", true, true, .plain⟩],
    fromJ :=
      [⟨"key", "key", true, true, .plain⟩] }

/-- `GetConfigurationResponse`, include/ocpp/v16/messages/GetConfiguration.hpp l.37; `to_json`, lib/ocpp/v16/messages/GetConfiguration.cpp l.61-85; `from_json`, l.87-107. -/
def t_v16_GetConfigurationResponse : TypeTable :=
  { name := "v16.GetConfigurationResponse",
    fields :=
      [⟨"configurationKey", true, true, .struct "v16.KeyValue"⟩,
       ⟨"unknownKey", true, true, .str (some 50)⟩],
    toJ :=
      [⟨"configurationKey", "configurationKey", true, true, .plain⟩,
       ⟨"unknownKey", "unknownKey", true, true, .plain⟩],
    fromJ :=
      [⟨"configurationKey", "configurationKey", true, true, .plain⟩,
       ⟨"unknownKey", "unknownKey", true, true, .plain⟩] }

/-- `GetDiagnosticsRequest`, include/ocpp/v16/messages/GetDiagnostics.hpp l.18; `to_json`, lib/ocpp/v16/messages/GetDiagnostics.cpp l.20-38; `from_json`, l.40-57. -/
def t_v16_GetDiagnosticsRequest : TypeTable :=
  { name := "v16.GetDiagnosticsRequest",
    fields :=
      [⟨"location", false, false, .str none⟩,
       ⟨"retries", true, false, .int⟩,
       ⟨"retryInterval", true, false, .int⟩,
       ⟨"startTime", true, false, .time⟩,
       ⟨"stopTime", true, false, .time⟩],
    toJ :=
      [⟨"location", "location", false, false, .plain⟩,
       ⟨"retries", "retries", true, false, .plain⟩,
       ⟨"retryInterval", "retryInterval", true, false, .plain⟩,
       ⟨"startTime", "startTime", true, false, .time⟩,
       ⟨"stopTime", "stopTime", true, false, .time⟩],
    fromJ :=
      [⟨"location", "location", false, false, .plain⟩,
       ⟨"retries", "retries", true, false, .plain⟩,
       ⟨"retryInterval", "retryInterval", true, false, .plain⟩,
       ⟨"startTime", "startTime", true, false, .time⟩,
       ⟨"stopTime", "stopTime", true, false, .time⟩] }

/-- `GetDiagnosticsResponse`, include/ocpp/v16/messages/GetDiagnostics.hpp l.41; `to_json`, lib/ocpp/v16/messages/GetDiagnostics.cpp l.70-77; `from_json`, l.79-86. -/
def t_v16_GetDiagnosticsResponse : TypeTable :=
  { name := "v16.GetDiagnosticsResponse",
    fields :=
      [⟨"fileName", true, false, .str (some 255)⟩],
    toJ :=
      [⟨"fileName", "fileName", true, false, .plain⟩],
    fromJ :=
      [⟨"fileName", "fileName", true, false, .plain⟩] }

/-- `GetInstalledCertificateIdsRequest`, include/ocpp/v16/messages/GetInstalledCertificateIds.hpp l.18; `to_json`, lib/ocpp/v16/messages/GetInstalledCertificateIds.cpp l.20-26; `from_json`, l.28-33. -/
def t_v16_GetInstalledCertificateIdsRequest : TypeTable :=
  { name := "v16.GetInstalledCertificateIdsRequest",
    fields :=
      [⟨"certificateType", false, false, .enum "v16.CertificateUseEnumType"⟩],
    toJ :=
      [⟨"certificateType", "certificateType", false, false, (.enum "v16.CertificateUseEnumType")⟩],
    fromJ :=
      [⟨"certificateType", "certificateType", false, false, (.enum "v16.CertificateUseEnumType")⟩] }

/-- `GetInstalledCertificateIdsResponse`, include/ocpp/v16/messages/GetInstalledCertificateIds.hpp l.38; `to_json`, lib/ocpp/v16/messages/GetInstalledCertificateIds.cpp l.47-59; `from_json`, l.61-74. -/
def t_v16_GetInstalledCertificateIdsResponse : TypeTable :=
  { name := "v16.GetInstalledCertificateIdsResponse",
    fields :=
      [⟨"status", false, false, .enum "v16.GetInstalledCertificateStatusEnumType"⟩,
       ⟨"certificateHashData", true, true, .struct "v16.CertificateHashDataType"⟩],
    toJ :=
      [⟨"status", "status", false, false, (.enum "v16.GetInstalledCertificateStatusEnumType")⟩,
       ⟨"certificateHashData", "certificateHashData", true, true, .plain⟩],
    fromJ :=
      [⟨"status", "status", false, false, (.enum "v16.GetInstalledCertificateStatusEnumType")⟩,
       ⟨"certificateHashData", "certificateHashData", true, true, .plain⟩] }

/-- `GetLocalListVersionRequest`, include/ocpp/v16/messages/GetLocalListVersion.hpp l.16; `to_json`, lib/ocpp/v16/messages/GetLocalListVersion.cpp l.19-24; `from_json`, l.26-33. -/
def t_v16_GetLocalListVersionRequest : TypeTable :=
  { name := "v16.GetLocalListVersionRequest",
    fields := [],
    toJ := [],
    fromJ := [] }

/-- `GetLocalListVersionResponse`, include/ocpp/v16/messages/GetLocalListVersion.hpp l.35; `to_json`, lib/ocpp/v16/messages/GetLocalListVersion.cpp l.47-53; `from_json`, l.55-60. -/
def t_v16_GetLocalListVersionResponse : TypeTable :=
  { name := "v16.GetLocalListVersionResponse",
    fields :=
      [⟨"listVersion", false, false, .int⟩],
    toJ :=
      [⟨"listVersion", "listVersion", false, false, .plain⟩],
    fromJ :=
      [⟨"listVersion", "listVersion", false, false, .plain⟩] }

/-- `GetLogRequest`, include/ocpp/v16/messages/GetLog.hpp l.19; `to_json`, lib/ocpp/v16/messages/GetLog.cpp l.20-34; `from_json`, l.36-49. -/
def t_v16_GetLogRequest : TypeTable :=
  { name := "v16.GetLogRequest",
    fields :=
      [⟨"log", false, false, .struct "v16.LogParametersType"⟩,
       ⟨"logType", false, false, .enum "v16.LogEnumType"⟩,
       ⟨"requestId", false, false, .int⟩,
       ⟨"retries", true, false, .int⟩,
       ⟨"retryInterval", true, false, .int⟩],
    toJ :=
      [⟨"log", "log", false, false, .plain⟩,
       ⟨"logType", "logType", false, false, (.enum "v16.LogEnumType")⟩,
       ⟨"requestId", "requestId", false, false, .plain⟩,
       ⟨"retries", "retries", true, false, .plain⟩,
       ⟨"retryInterval", "retryInterval", true, false, .plain⟩],
    fromJ :=
      [⟨"log", "log", false, false, .plain⟩,
       ⟨"logType", "logType", false, false, (.enum "v16.LogEnumType")⟩,
       ⟨"requestId", "requestId", false, false, .plain⟩,
       ⟨"retries", "retries", true, false, .plain⟩,
       ⟨"retryInterval", "retryInterval", true, false, .plain⟩] }

/-- `GetLogResponse`, include/ocpp/v16/messages/GetLog.hpp l.42; `to_json`, lib/ocpp/v16/messages/GetLog.cpp l.62-71; `from_json`, l.73-81. -/
def t_v16_GetLogResponse : TypeTable :=
  { name := "v16.GetLogResponse",
    fields :=
      [⟨"status", false, false, .enum "v16.LogStatusEnumType"⟩,
       ⟨"filename", true, false, .str (some 255)⟩],
    toJ :=
      [⟨"status", "status", false, false, (.enum "v16.LogStatusEnumType")⟩,
       ⟨"filename", "filename", true, false, .plain⟩],
    fromJ :=
      [⟨"status", "status", false, false, (.enum "v16.LogStatusEnumType")⟩,
       ⟨"filename", "filename", true, false, .plain⟩] }

/-- `HeartbeatRequest`, include/ocpp/v16/messages/Heartbeat.hpp l.16; `to_json`, lib/ocpp/v16/messages/Heartbeat.cpp l.19-24; `from_json`, l.26-33. -/
def t_v16_HeartbeatRequest : TypeTable :=
  { name := "v16.HeartbeatRequest",
    fields := [],
    toJ := [],
    fromJ := [] }

/-- `HeartbeatResponse`, include/ocpp/v16/messages/Heartbeat.hpp l.34; `to_json`, lib/ocpp/v16/messages/Heartbeat.cpp l.46-52; `from_json`, l.54-59. -/
def t_v16_HeartbeatResponse : TypeTable :=
  { name := "v16.HeartbeatResponse",
    fields :=
      [⟨"currentTime", false, false, .time⟩],
    toJ :=
      [⟨"currentTime", "currentTime", false, false, .time⟩],
    fromJ :=
      [⟨"currentTime", "currentTime", false, false, .time⟩] }

/-- `InstallCertificateRequest`, include/ocpp/v16/messages/InstallCertificate.hpp l.17; `to_json`, lib/ocpp/v16/messages/InstallCertificate.cpp l.19-26; `from_json`, l.28-34. -/
def t_v16_InstallCertificateRequest : TypeTable :=
  { name := "v16.InstallCertificateRequest",
    fields :=
      [⟨"certificateType", false, false, .enum "v16.CertificateUseEnumType"⟩,
       ⟨"certificate", false, false, .str (some 5500)⟩],
    toJ :=
      [⟨"certificateType", "certificateType", false, false, (.enum "v16.CertificateUseEnumType")⟩,
       ⟨"certificate", "certificate", false, false, .plain⟩],
    fromJ :=
      [⟨"certificateType", "certificateType", false, false, (.enum "v16.CertificateUseEnumType")⟩,
       ⟨"certificate", "certificate", false, false, .plain⟩] }

/-- `InstallCertificateResponse`, include/ocpp/v16/messages/InstallCertificate.hpp l.37; `to_json`, lib/ocpp/v16/messages/InstallCertificate.cpp l.47-53; `from_json`, l.55-60. -/
def t_v16_InstallCertificateResponse : TypeTable :=
  { name := "v16.InstallCertificateResponse",
    fields :=
      [⟨"status", false, false, .enum "v16.InstallCertificateStatusEnumType"⟩],
    toJ :=
      [⟨"status", "status", false, false, (.enum "v16.InstallCertificateStatusEnumType")⟩],
    fromJ :=
      [⟨"status", "status", false, false, (.enum "v16.InstallCertificateStatusEnumType")⟩] }

/-- `LogStatusNotificationRequest`, include/ocpp/v16/messages/LogStatusNotification.hpp l.18; `to_json`, lib/ocpp/v16/messages/LogStatusNotification.cpp l.20-29; `from_json`, l.31-39. -/
def t_v16_LogStatusNotificationRequest : TypeTable :=
  { name := "v16.LogStatusNotificationRequest",
    fields :=
      [⟨"status", false, false, .enum "v16.UploadLogStatusEnumType"⟩,
       ⟨"requestId", true, false, .int⟩],
    toJ :=
      [⟨"status", "status", false, false, (.enum "v16.UploadLogStatusEnumType")⟩,
       ⟨"requestId", "requestId", true, false, .plain⟩],
    fromJ :=
      [⟨"status", "status", false, false, (.enum "v16.UploadLogStatusEnumType")⟩,
       ⟨"requestId", "requestId", true, false, .plain⟩] }

/-- `LogStatusNotificationResponse`, include/ocpp/v16/messages/LogStatusNotification.hpp l.39; `to_json`, lib/ocpp/v16/messages/LogStatusNotification.cpp l.53-58; `from_json`, l.60-67. -/
def t_v16_LogStatusNotificationResponse : TypeTable :=
  { name := "v16.LogStatusNotificationResponse",
    fields := [],
    toJ := [],
    fromJ := [] }

/-- `MeterValuesRequest`, include/ocpp/v16/messages/MeterValues.hpp l.18; `to_json`, lib/ocpp/v16/messages/MeterValues.cpp l.20-30; `from_json`, l.32-43. -/
def t_v16_MeterValuesRequest : TypeTable :=
  { name := "v16.MeterValuesRequest",
    fields :=
      [⟨"connectorId", false, false, .int⟩,
       ⟨"meterValue", false, true, .struct "v16.MeterValue"⟩,
       ⟨"transactionId", true, false, .int⟩],
    toJ :=
      [⟨"connectorId", "connectorId", false, false, .plain⟩,
       ⟨"meterValue", "meterValue", false, false, .plain⟩,
       ⟨"transactionId", "transactionId", true, false, .plain⟩],
    fromJ :=
      [⟨"connectorId", "connectorId", false, false, .plain⟩,
       ⟨"meterValue", "meterValue", false, true, .plain⟩,
       ⟨"transactionId", "transactionId", true, false, .plain⟩] }

/-- `MeterValuesResponse`, include/ocpp/v16/messages/MeterValues.hpp l.39; `to_json`, lib/ocpp/v16/messages/MeterValues.cpp l.56-61; `from_json`, l.63-70. -/
def t_v16_MeterValuesResponse : TypeTable :=
  { name := "v16.MeterValuesResponse",
    fields := [],
    toJ := [],
    fromJ := [] }

/-- `RemoteStartTransactionRequest`, include/ocpp/v16/messages/RemoteStartTransaction.hpp l.19; `to_json`, lib/ocpp/v16/messages/RemoteStartTransaction.cpp l.20-32; `from_json`, l.34-45. -/
def t_v16_RemoteStartTransactionRequest : TypeTable :=
  { name := "v16.RemoteStartTransactionRequest",
    fields :=
      [⟨"idTag", false, false, .str (some 20)⟩,
       ⟨"connectorId", true, false, .int⟩,
       ⟨"chargingProfile", true, false, .struct "v16.ChargingProfile"⟩],
    toJ :=
      [⟨"idTag", "idTag", false, false, .plain⟩,
       ⟨"connectorId", "connectorId", true, false, .plain⟩,
       ⟨"chargingProfile", "chargingProfile", true, false, .plain⟩],
    fromJ :=
      [⟨"idTag", "idTag", false, false, .plain⟩,
       ⟨"connectorId", "connectorId", true, false, .plain⟩,
       ⟨"chargingProfile", "chargingProfile", true, false, .plain⟩] }

/-- `RemoteStartTransactionResponse`, include/ocpp/v16/messages/RemoteStartTransaction.hpp l.41; `to_json`, lib/ocpp/v16/messages/RemoteStartTransaction.cpp l.59-65; `from_json`, l.67-72. -/
def t_v16_RemoteStartTransactionResponse : TypeTable :=
  { name := "v16.RemoteStartTransactionResponse",
    fields :=
      [⟨"status", false, false, .enum "v16.RemoteStartStopStatus"⟩],
    toJ :=
      [⟨"status", "status", false, false, (.enum "v16.RemoteStartStopStatus")⟩],
    fromJ :=
      [⟨"status", "status", false, false, (.enum "v16.RemoteStartStopStatus")⟩] }

/-- `RemoteStopTransactionRequest`, include/ocpp/v16/messages/RemoteStopTransaction.hpp l.17; `to_json`, lib/ocpp/v16/messages/RemoteStopTransaction.cpp l.19-25; `from_json`, l.27-32. -/
def t_v16_RemoteStopTransactionRequest : TypeTable :=
  { name := "v16.RemoteStopTransactionRequest",
    fields :=
      [⟨"transactionId", false, false, .int⟩],
    toJ :=
      [⟨"transactionId", "transactionId", false, false, .plain⟩],
    fromJ :=
      [⟨"transactionId", "transactionId", false, false, .plain⟩] }

/-- `RemoteStopTransactionResponse`, include/ocpp/v16/messages/RemoteStopTransaction.hpp l.37; `to_json`, lib/ocpp/v16/messages/RemoteStopTransaction.cpp l.46-52; `from_json`, l.54-59. -/
def t_v16_RemoteStopTransactionResponse : TypeTable :=
  { name := "v16.RemoteStopTransactionResponse",
    fields :=
      [⟨"status", false, false, .enum "v16.RemoteStartStopStatus"⟩],
    toJ :=
      [⟨"status", "status", false, false, (.enum "v16.RemoteStartStopStatus")⟩],
    fromJ :=
      [⟨"status", "status", false, false, (.enum "v16.RemoteStartStopStatus")⟩] }

/-- `ReserveNowRequest`, include/ocpp/v16/messages/ReserveNow.hpp l.19; `to_json`, lib/ocpp/v16/messages/ReserveNow.cpp l.20-32; `from_json`, l.34-45. -/
def t_v16_ReserveNowRequest : TypeTable :=
  { name := "v16.ReserveNowRequest",
    fields :=
      [⟨"connectorId", false, false, .int⟩,
       ⟨"expiryDate", false, false, .time⟩,
       ⟨"idTag", false, false, .str (some 20)⟩,
       ⟨"reservationId", false, false, .int⟩,
       ⟨"parentIdTag", true, false, .str (some 20)⟩],
    toJ :=
      [⟨"connectorId", "connectorId", false, false, .plain⟩,
       ⟨"expiryDate", "expiryDate", false, false, .time⟩,
       ⟨"idTag", "idTag", false, false, .plain⟩,
       ⟨"reservationId", "reservationId", false, false, .plain⟩,
       ⟨"parentIdTag", "parentIdTag", true, false, .plain⟩],
    fromJ :=
      [⟨"connectorId", "connectorId", false, false, .plain⟩,
       ⟨"expiryDate", "expiryDate", false, false, .time⟩,
       ⟨"idTag", "idTag", false, false, .plain⟩,
       ⟨"reservationId", "reservationId", false, false, .plain⟩,
       ⟨"parentIdTag", "parentIdTag", true, false, .plain⟩] }

/-- `ReserveNowResponse`, include/ocpp/v16/messages/ReserveNow.hpp l.42; `to_json`, lib/ocpp/v16/messages/ReserveNow.cpp l.58-64; `from_json`, l.66-71. -/
def t_v16_ReserveNowResponse : TypeTable :=
  { name := "v16.ReserveNowResponse",
    fields :=
      [⟨"status", false, false, .enum "v16.ReservationStatus"⟩],
    toJ :=
      [⟨"status", "status", false, false, (.enum "v16.ReservationStatus")⟩],
    fromJ :=
      [⟨"status", "status", false, false, (.enum "v16.ReservationStatus")⟩] }

/-- `ResetRequest`, include/ocpp/v16/messages/Reset.hpp l.17; `to_json`, lib/ocpp/v16/messages/Reset.cpp l.19-25; `from_json`, l.27-32. -/
def t_v16_ResetRequest : TypeTable :=
  { name := "v16.ResetRequest",
    fields :=
      [⟨"type", false, false, .enum "v16.ResetType"⟩],
    toJ :=
      [⟨"type", "type", false, false, (.enum "v16.ResetType")⟩],
    fromJ :=
      [⟨"type", "type", false, false, (.enum "v16.ResetType")⟩] }

/-- `ResetResponse`, include/ocpp/v16/messages/Reset.hpp l.36; `to_json`, lib/ocpp/v16/messages/Reset.cpp l.45-51; `from_json`, l.53-58. -/
def t_v16_ResetResponse : TypeTable :=
  { name := "v16.ResetResponse",
    fields :=
      [⟨"status", false, false, .enum "v16.ResetStatus"⟩],
    toJ :=
      [⟨"status", "status", false, false, (.enum "v16.ResetStatus")⟩],
    fromJ :=
      [⟨"status", "status", false, false, (.enum "v16.ResetStatus")⟩] }

/-- `SecurityEventNotificationRequest`, include/ocpp/v16/messages/SecurityEventNotification.hpp l.18; `to_json`, lib/ocpp/v16/messages/SecurityEventNotification.cpp l.20-30; `from_json`, l.32-41. -/
def t_v16_SecurityEventNotificationRequest : TypeTable :=
  { name := "v16.SecurityEventNotificationRequest",
    fields :=
      [⟨"type", false, false, .str (some 50)⟩,
       ⟨"timestamp", false, false, .time⟩,
       ⟨"techInfo", true, false, .str (some 255)⟩],
    toJ :=
      [⟨"type", "type", false, false, .plain⟩,
       ⟨"timestamp", "timestamp", false, false, .time⟩,
       ⟨"techInfo", "techInfo", true, false, .plain⟩],
    fromJ :=
      [⟨"type", "type", false, false, .plain⟩,
       ⟨"timestamp", "timestamp", false, false, .time⟩,
       ⟨"techInfo", "techInfo", true, false, .plain⟩] }

/-- `SecurityEventNotificationResponse`, include/ocpp/v16/messages/SecurityEventNotification.hpp l.40; `to_json`, lib/ocpp/v16/messages/SecurityEventNotification.cpp l.55-60; `from_json`, l.62-69. -/
def t_v16_SecurityEventNotificationResponse : TypeTable :=
  { name := "v16.SecurityEventNotificationResponse",
    fields := [],
    toJ := [],
    fromJ := [] }

/-- `SendLocalListRequest`, include/ocpp/v16/messages/SendLocalList.hpp l.19; `to_json`, lib/ocpp/v16/messages/SendLocalList.cpp l.20-33; `from_json`, l.35-49. -/
def t_v16_SendLocalListRequest : TypeTable :=
  { name := "v16.SendLocalListRequest",
    fields :=
      [⟨"listVersion", false, false, .int⟩,
       ⟨"updateType", false, false, .enum "v16.UpdateType"⟩,
       ⟨"localAuthorizationList", true, true, .struct "v16.LocalAuthorizationList"⟩],
    toJ :=
      [⟨"listVersion", "listVersion", false, false, .plain⟩,
       ⟨"updateType", "updateType", false, false, (.enum "v16.UpdateType")⟩,
       ⟨"localAuthorizationList", "localAuthorizationList", true, true, .plain⟩],
    fromJ :=
      [⟨"listVersion", "listVersion", false, false, .plain⟩,
       ⟨"updateType", "updateType", false, false, (.enum "v16.UpdateType")⟩,
       ⟨"localAuthorizationList", "localAuthorizationList", true, true, .plain⟩] }

/-- `SendLocalListResponse`, include/ocpp/v16/messages/SendLocalList.hpp l.40; `to_json`, lib/ocpp/v16/messages/SendLocalList.cpp l.62-68; `from_json`, l.70-75. -/
def t_v16_SendLocalListResponse : TypeTable :=
  { name := "v16.SendLocalListResponse",
    fields :=
      [⟨"status", false, false, .enum "v16.UpdateStatus"⟩],
    toJ :=
      [⟨"status", "status", false, false, (.enum "v16.UpdateStatus")⟩],
    fromJ :=
      [⟨"status", "status", false, false, (.enum "v16.UpdateStatus")⟩] }

/-- `SetChargingProfileRequest`, include/ocpp/v16/messages/SetChargingProfile.hpp l.18; `to_json`, lib/ocpp/v16/messages/SetChargingProfile.cpp l.20-27; `from_json`, l.29-35. -/
def t_v16_SetChargingProfileRequest : TypeTable :=
  { name := "v16.SetChargingProfileRequest",
    fields :=
      [⟨"connectorId", false, false, .int⟩,
       ⟨"csChargingProfiles", false, false, .struct "v16.ChargingProfile"⟩],
    toJ :=
      [⟨"connectorId", "connectorId", false, false, .plain⟩,
       ⟨"csChargingProfiles", "csChargingProfiles", false, false, .plain⟩],
    fromJ :=
      [⟨"connectorId", "connectorId", false, false, .plain⟩,
       ⟨"csChargingProfiles", "csChargingProfiles", false, false, .plain⟩] }

/-- `SetChargingProfileResponse`, include/ocpp/v16/messages/SetChargingProfile.hpp l.38; `to_json`, lib/ocpp/v16/messages/SetChargingProfile.cpp l.48-54; `from_json`, l.56-61. -/
def t_v16_SetChargingProfileResponse : TypeTable :=
  { name := "v16.SetChargingProfileResponse",
    fields :=
      [⟨"status", false, false, .enum "v16.ChargingProfileStatus"⟩],
    toJ :=
      [⟨"status", "status", false, false, (.enum "v16.ChargingProfileStatus")⟩],
    fromJ :=
      [⟨"status", "status", false, false, (.enum "v16.ChargingProfileStatus")⟩] }

/-- `SignCertificateRequest`, include/ocpp/v16/messages/SignCertificate.hpp l.17; `to_json`, lib/ocpp/v16/messages/SignCertificate.cpp l.19-25; `from_json`, l.27-32. -/
def t_v16_SignCertificateRequest : TypeTable :=
  { name := "v16.SignCertificateRequest",
    fields :=
      [⟨"csr", false, false, .str (some 5500)⟩],
    toJ :=
      [⟨"csr", "csr", false, false, .plain⟩],
    fromJ :=
      [⟨"csr", "csr", false, false, .plain⟩] }

/-- `SignCertificateResponse`, include/ocpp/v16/messages/SignCertificate.hpp l.36; `to_json`, lib/ocpp/v16/messages/SignCertificate.cpp l.45-51; `from_json`, l.53-58. -/
def t_v16_SignCertificateResponse : TypeTable :=
  { name := "v16.SignCertificateResponse",
    fields :=
      [⟨"status", false, false, .enum "v16.GenericStatusEnumType"⟩],
    toJ :=
      [⟨"status", "status", false, false, (.enum "v16.GenericStatusEnumType")⟩],
    fromJ :=
      [⟨"status", "status", false, false, (.enum "v16.GenericStatusEnumType")⟩] }

/-- `SignedFirmwareStatusNotificationRequest`, include/ocpp/v16/messages/SignedFirmwareStatusNotification.hpp l.18; `to_json`, lib/ocpp/v16/messages/SignedFirmwareStatusNotification.cpp l.20-29; `from_json`, l.31-39. -/
def t_v16_SignedFirmwareStatusNotificationRequest : TypeTable :=
  { name := "v16.SignedFirmwareStatusNotificationRequest",
    fields :=
      [⟨"status", false, false, .enum "v16.FirmwareStatusEnumType"⟩,
       ⟨"requestId", true, false, .int⟩],
    toJ :=
      [⟨"status", "status", false, false, (.enum "v16.FirmwareStatusEnumType")⟩,
       ⟨"requestId", "requestId", true, false, .plain⟩],
    fromJ :=
      [⟨"status", "status", false, false, (.enum "v16.FirmwareStatusEnumType")⟩,
       ⟨"requestId", "requestId", true, false, .plain⟩] }

/-- `SignedFirmwareStatusNotificationResponse`, include/ocpp/v16/messages/SignedFirmwareStatusNotification.hpp l.39; `to_json`, lib/ocpp/v16/messages/SignedFirmwareStatusNotification.cpp l.53-58; `from_json`, l.60-67. -/
def t_v16_SignedFirmwareStatusNotificationResponse : TypeTable :=
  { name := "v16.SignedFirmwareStatusNotificationResponse",
    fields := [],
    toJ := [],
    fromJ := [] }

/-- `SignedUpdateFirmwareRequest`, include/ocpp/v16/messages/SignedUpdateFirmware.hpp l.18; `to_json`, lib/ocpp/v16/messages/SignedUpdateFirmware.cpp l.20-33; `from_json`, l.35-47. -/
def t_v16_SignedUpdateFirmwareRequest : TypeTable :=
  { name := "v16.SignedUpdateFirmwareRequest",
    fields :=
      [⟨"requestId", false, false, .int⟩,
       ⟨"firmware", false, false, .struct "v16.FirmwareType"⟩,
       ⟨"retries", true, false, .int⟩,
       ⟨"retryInterval", true, false, .int⟩],
    toJ :=
      [⟨"requestId", "requestId", false, false, .plain⟩,
       ⟨"firmware", "firmware", false, false, .plain⟩,
       ⟨"retries", "retries", true, false, .plain⟩,
       ⟨"retryInterval", "retryInterval", true, false, .plain⟩],
    fromJ :=
      [⟨"requestId", "requestId", false, false, .plain⟩,
       ⟨"firmware", "firmware", false, false, .plain⟩,
       ⟨"retries", "retries", true, false, .plain⟩,
       ⟨"retryInterval", "retryInterval", true, false, .plain⟩] }

/-- `SignedUpdateFirmwareResponse`, include/ocpp/v16/messages/SignedUpdateFirmware.hpp l.41; `to_json`, lib/ocpp/v16/messages/SignedUpdateFirmware.cpp l.61-67; `from_json`, l.69-74. -/
def t_v16_SignedUpdateFirmwareResponse : TypeTable :=
  { name := "v16.SignedUpdateFirmwareResponse",
    fields :=
      [⟨"status", false, false, .enum "v16.UpdateFirmwareStatusEnumType"⟩],
    toJ :=
      [⟨"status", "status", false, false, (.enum "v16.UpdateFirmwareStatusEnumType")⟩],
    fromJ :=
      [⟨"status", "status", false, false, (.enum "v16.UpdateFirmwareStatusEnumType")⟩] }

/-- `StartTransactionRequest`, include/ocpp/v16/messages/StartTransaction.hpp l.19; `to_json`, lib/ocpp/v16/messages/StartTransaction.cpp l.20-32; `from_json`, l.34-45. -/
def t_v16_StartTransactionRequest : TypeTable :=
  { name := "v16.StartTransactionRequest",
    fields :=
      [⟨"connectorId", false, false, .int⟩,
       ⟨"idTag", false, false, .str (some 20)⟩,
       ⟨"meterStart", false, false, .int⟩,
       ⟨"timestamp", false, false, .time⟩,
       ⟨"reservationId", true, false, .int⟩],
    toJ :=
      [⟨"connectorId", "connectorId", false, false, .plain⟩,
       ⟨"idTag", "idTag", false, false, .plain⟩,
       ⟨"meterStart", "meterStart", false, false, .plain⟩,
       ⟨"timestamp", "timestamp", false, false, .time⟩,
       ⟨"reservationId", "reservationId", true, false, .plain⟩],
    fromJ :=
      [⟨"connectorId", "connectorId", false, false, .plain⟩,
       ⟨"idTag", "idTag", false, false, .plain⟩,
       ⟨"meterStart", "meterStart", false, false, .plain⟩,
       ⟨"timestamp", "timestamp", false, false, .time⟩,
       ⟨"reservationId", "reservationId", true, false, .plain⟩] }

/-- `StartTransactionResponse`, include/ocpp/v16/messages/StartTransaction.hpp l.42; `to_json`, lib/ocpp/v16/messages/StartTransaction.cpp l.58-65; `from_json`, l.67-73. -/
def t_v16_StartTransactionResponse : TypeTable :=
  { name := "v16.StartTransactionResponse",
    fields :=
      [⟨"idTagInfo", false, false, .struct "v16.IdTagInfo"⟩,
       ⟨"transactionId", false, false, .int⟩],
    toJ :=
      [⟨"idTagInfo", "idTagInfo", false, false, .plain⟩,
       ⟨"transactionId", "transactionId", false, false, .plain⟩],
    fromJ :=
      [⟨"idTagInfo", "idTagInfo", false, false, .plain⟩,
       ⟨"transactionId", "transactionId", false, false, .plain⟩] }

/-- `StatusNotificationRequest`, include/ocpp/v16/messages/StatusNotification.hpp l.19; `to_json`, lib/ocpp/v16/messages/StatusNotification.cpp l.20-40; `from_json`, l.42-61. -/
def t_v16_StatusNotificationRequest : TypeTable :=
  { name := "v16.StatusNotificationRequest",
    fields :=
      [⟨"connectorId", false, false, .int⟩,
       ⟨"errorCode", false, false, .enum "v16.ChargePointErrorCode"⟩,
       ⟨"status", false, false, .enum "v16.ChargePointStatus"⟩,
       ⟨"info", true, false, .str (some 50)⟩,
       ⟨"timestamp", true, false, .time⟩,
       ⟨"vendorId", true, false, .str (some 255)⟩,
       ⟨"vendorErrorCode", true, false, .str (some 50)⟩],
    toJ :=
      [⟨"connectorId", "connectorId", false, false, .plain⟩,
       ⟨"errorCode", "errorCode", false, false, (.enum "v16.ChargePointErrorCode")⟩,
       ⟨"status", "status", false, false, (.enum "v16.ChargePointStatus")⟩,
       ⟨"info", "info", true, false, .plain⟩,
       ⟨"timestamp", "timestamp", true, false, .time⟩,
       ⟨"vendorId", "vendorId", true, false, .plain⟩,
       ⟨"vendorErrorCode", "vendorErrorCode", true, false, .plain⟩],
    fromJ :=
      [⟨"connectorId", "connectorId", false, false, .plain⟩,
       ⟨"errorCode", "errorCode", false, false, (.enum "v16.ChargePointErrorCode")⟩,
       ⟨"status", "status", false, false, (.enum "v16.ChargePointStatus")⟩,
       ⟨"info", "info", true, false, .plain⟩,
       ⟨"timestamp", "timestamp", true, false, .time⟩,
       ⟨"vendorId", "vendorId", true, false, .plain⟩,
       ⟨"vendorErrorCode", "vendorErrorCode", true, false, .plain⟩] }

/-- `StatusNotificationResponse`, include/ocpp/v16/messages/StatusNotification.hpp l.44; `to_json`, lib/ocpp/v16/messages/StatusNotification.cpp l.74-79; `from_json`, l.81-88. -/
def t_v16_StatusNotificationResponse : TypeTable :=
  { name := "v16.StatusNotificationResponse",
    fields := [],
    toJ := [],
    fromJ := [] }

/-- `StopTransactionRequest`, include/ocpp/v16/messages/StopTransaction.hpp l.19; `to_json`, lib/ocpp/v16/messages/StopTransaction.cpp l.20-40; `from_json`, l.42-63. -/
def t_v16_StopTransactionRequest : TypeTable :=
  { name := "v16.StopTransactionRequest",
    fields :=
      [⟨"meterStop", false, false, .int⟩,
       ⟨"timestamp", false, false, .time⟩,
       ⟨"transactionId", false, false, .int⟩,
       ⟨"idTag", true, false, .str (some 20)⟩,
       ⟨"reason", true, false, .enum "v16.Reason"⟩,
       ⟨"transactionData", true, true, .struct "v16.TransactionData"⟩],
    toJ :=
      [⟨"meterStop", "meterStop", false, false, .plain⟩,
       ⟨"timestamp", "timestamp", false, false, .time⟩,
       ⟨"transactionId", "transactionId", false, false, .plain⟩,
       ⟨"idTag", "idTag", true, false, .plain⟩,
       ⟨"reason", "reason", true, false, (.enum "v16.Reason")⟩,
       ⟨"transactionData", "transactionData", true, true, .plain⟩],
    fromJ :=
      [⟨"meterStop", "meterStop", false, false, .plain⟩,
       ⟨"timestamp", "timestamp", false, false, .time⟩,
       ⟨"transactionId", "transactionId", false, false, .plain⟩,
       ⟨"idTag", "idTag", true, false, .plain⟩,
       ⟨"reason", "reason", true, false, (.enum "v16.Reason")⟩,
       ⟨"transactionData", "transactionData", true, true, .plain⟩] }

/-- `StopTransactionResponse`, include/ocpp/v16/messages/StopTransaction.hpp l.43; `to_json`, lib/ocpp/v16/messages/StopTransaction.cpp l.76-83; `from_json`, l.85-92. -/
def t_v16_StopTransactionResponse : TypeTable :=
  { name := "v16.StopTransactionResponse",
    fields :=
      [⟨"idTagInfo", true, false, .struct "v16.IdTagInfo"⟩],
    toJ :=
      [⟨"idTagInfo", "idTagInfo", true, false, .plain⟩],
    fromJ :=
      [⟨"idTagInfo", "idTagInfo", true, false, .plain⟩] }

/-- `TriggerMessageRequest`, include/ocpp/v16/messages/TriggerMessage.hpp l.18; `to_json`, lib/ocpp/v16/messages/TriggerMessage.cpp l.20-29; `from_json`, l.31-39. -/
def t_v16_TriggerMessageRequest : TypeTable :=
  { name := "v16.TriggerMessageRequest",
    fields :=
      [⟨"requestedMessage", false, false, .enum "v16.MessageTrigger"⟩,
       ⟨"connectorId", true, false, .int⟩],
    toJ :=
      [⟨"requestedMessage", "requestedMessage", false, false, (.enum "v16.MessageTrigger")⟩,
       ⟨"connectorId", "connectorId", true, false, .plain⟩],
    fromJ :=
      [⟨"requestedMessage", "requestedMessage", false, false, (.enum "v16.MessageTrigger")⟩,
       ⟨"connectorId", "connectorId", true, false, .plain⟩] }

/-- `TriggerMessageResponse`, include/ocpp/v16/messages/TriggerMessage.hpp l.38; `to_json`, lib/ocpp/v16/messages/TriggerMessage.cpp l.52-58; `from_json`, l.60-65. -/
def t_v16_TriggerMessageResponse : TypeTable :=
  { name := "v16.TriggerMessageResponse",
    fields :=
      [⟨"status", false, false, .enum "v16.TriggerMessageStatus"⟩],
    toJ :=
      [⟨"status", "status", false, false, (.enum "v16.TriggerMessageStatus")⟩],
    fromJ :=
      [⟨"status", "status", false, false, (.enum "v16.TriggerMessageStatus")⟩] }

/-- `UnlockConnectorRequest`, include/ocpp/v16/messages/UnlockConnector.hpp l.17; `to_json`, lib/ocpp/v16/messages/UnlockConnector.cpp l.19-25; `from_json`, l.27-32. -/
def t_v16_UnlockConnectorRequest : TypeTable :=
  { name := "v16.UnlockConnectorRequest",
    fields :=
      [⟨"connectorId", false, false, .int⟩],
    toJ :=
      [⟨"connectorId", "connectorId", false, false, .plain⟩],
    fromJ :=
      [⟨"connectorId", "connectorId", false, false, .plain⟩] }

/-- `UnlockConnectorResponse`, include/ocpp/v16/messages/UnlockConnector.hpp l.36; `to_json`, lib/ocpp/v16/messages/UnlockConnector.cpp l.45-51; `from_json`, l.53-58. -/
def t_v16_UnlockConnectorResponse : TypeTable :=
  { name := "v16.UnlockConnectorResponse",
    fields :=
      [⟨"status", false, false, .enum "v16.UnlockStatus"⟩],
    toJ :=
      [⟨"status", "status", false, false, (.enum "v16.UnlockStatus")⟩],
    fromJ :=
      [⟨"status", "status", false, false, (.enum "v16.UnlockStatus")⟩] }

/-- `UpdateFirmwareRequest`, include/ocpp/v16/messages/UpdateFirmware.hpp l.17; `to_json`, lib/ocpp/v16/messages/UpdateFirmware.cpp l.20-33; `from_json`, l.35-47. -/
def t_v16_UpdateFirmwareRequest : TypeTable :=
  { name := "v16.UpdateFirmwareRequest",
    fields :=
      [⟨"location", false, false, .str none⟩,
       ⟨"retrieveDate", false, false, .time⟩,
       ⟨"retries", true, false, .int⟩,
       ⟨"retryInterval", true, false, .int⟩],
    toJ :=
      [⟨"location", "location", false, false, .plain⟩,
       ⟨"retrieveDate", "retrieveDate", false, false, .time⟩,
       ⟨"retries", "retries", true, false, .plain⟩,
       ⟨"retryInterval", "retryInterval", true, false, .plain⟩],
    fromJ :=
      [⟨"location", "location", false, false, .plain⟩,
       ⟨"retrieveDate", "retrieveDate", false, false, .time⟩,
       ⟨"retries", "retries", true, false, .plain⟩,
       ⟨"retryInterval", "retryInterval", true, false, .plain⟩] }

/-- `UpdateFirmwareResponse`, include/ocpp/v16/messages/UpdateFirmware.hpp l.39; `to_json`, lib/ocpp/v16/messages/UpdateFirmware.cpp l.60-65; `from_json`, l.67-74. -/
def t_v16_UpdateFirmwareResponse : TypeTable :=
  { name := "v16.UpdateFirmwareResponse",
    fields := [],
    toJ := [],
    fromJ := [] }

/-- All of them. -/
def typesV16 : List TypeTable :=
  [t_v16_IdTagInfo, t_v16_CertificateHashDataType, t_v16_ChargingSchedulePeriod, t_v16_ChargingSchedule, t_v16_KeyValue, t_v16_LogParametersType,
   t_v16_SampledValue, t_v16_MeterValue, t_v16_ChargingProfile, t_v16_LocalAuthorizationList, t_v16_FirmwareType, t_v16_TransactionData,
   t_v16_AuthorizeRequest, t_v16_AuthorizeResponse, t_v16_BootNotificationRequest, t_v16_BootNotificationResponse, t_v16_CancelReservationRequest,
   t_v16_CancelReservationResponse, t_v16_CertificateSignedRequest, t_v16_CertificateSignedResponse, t_v16_ChangeAvailabilityRequest,
   t_v16_ChangeAvailabilityResponse, t_v16_ChangeConfigurationRequest, t_v16_ChangeConfigurationResponse, t_v16_ClearCacheRequest,
   t_v16_ClearCacheResponse, t_v16_ClearChargingProfileRequest, t_v16_ClearChargingProfileResponse, t_v16_DataTransferRequest,
   t_v16_DataTransferResponse, t_v16_DeleteCertificateRequest, t_v16_DeleteCertificateResponse, t_v16_DiagnosticsStatusNotificationRequest,
   t_v16_DiagnosticsStatusNotificationResponse, t_v16_ExtendedTriggerMessageRequest, t_v16_ExtendedTriggerMessageResponse,
   t_v16_FirmwareStatusNotificationRequest, t_v16_FirmwareStatusNotificationResponse, t_v16_GetCompositeScheduleRequest,
   t_v16_GetCompositeScheduleResponse, t_v16_GetConfigurationRequest, t_v16_GetConfigurationResponse, t_v16_GetDiagnosticsRequest,
   t_v16_GetDiagnosticsResponse, t_v16_GetInstalledCertificateIdsRequest, t_v16_GetInstalledCertificateIdsResponse, t_v16_GetLocalListVersionRequest,
   t_v16_GetLocalListVersionResponse, t_v16_GetLogRequest, t_v16_GetLogResponse, t_v16_HeartbeatRequest, t_v16_HeartbeatResponse,
   t_v16_InstallCertificateRequest, t_v16_InstallCertificateResponse, t_v16_LogStatusNotificationRequest, t_v16_LogStatusNotificationResponse,
   t_v16_MeterValuesRequest, t_v16_MeterValuesResponse, t_v16_RemoteStartTransactionRequest, t_v16_RemoteStartTransactionResponse,
   t_v16_RemoteStopTransactionRequest, t_v16_RemoteStopTransactionResponse, t_v16_ReserveNowRequest, t_v16_ReserveNowResponse, t_v16_ResetRequest,
   t_v16_ResetResponse, t_v16_SecurityEventNotificationRequest, t_v16_SecurityEventNotificationResponse, t_v16_SendLocalListRequest,
   t_v16_SendLocalListResponse, t_v16_SetChargingProfileRequest, t_v16_SetChargingProfileResponse, t_v16_SignCertificateRequest,
   t_v16_SignCertificateResponse, t_v16_SignedFirmwareStatusNotificationRequest, t_v16_SignedFirmwareStatusNotificationResponse,
   t_v16_SignedUpdateFirmwareRequest, t_v16_SignedUpdateFirmwareResponse, t_v16_StartTransactionRequest, t_v16_StartTransactionResponse,
   t_v16_StatusNotificationRequest, t_v16_StatusNotificationResponse, t_v16_StopTransactionRequest, t_v16_StopTransactionResponse,
   t_v16_TriggerMessageRequest, t_v16_TriggerMessageResponse, t_v16_UnlockConnectorRequest, t_v16_UnlockConnectorResponse,
   t_v16_UpdateFirmwareRequest, t_v16_UpdateFirmwareResponse]

end Verif.Wire
