import Verif.Wire.EnumModel

/-!
Generated from the declarations and conversions of the enumerations, by a script that reads the text of the cited files; `decl` are the
values declared in the header, `toS` the cases of the switch, `fromS` the comparisons in their order.
-/

namespace Verif.Wire

/-- `GenericStatusEnum`, include/ocpp/v2/ocpp_enums.hpp l.15; `generic_status_enum_to_string`, lib/ocpp/v2/ocpp_enums.cpp l.16-25; `string_to_generic_status_enum`, l.27-36. -/
def e_v2_GenericStatusEnum : EnumTable :=
  { name := "v2.GenericStatusEnum",
    decl := ["Accepted", "Rejected"],
    toS := [("Accepted", "Accepted"), ("Rejected", "Rejected")],
    fromS := [("Accepted", "Accepted"), ("Rejected", "Rejected")] }

/-- `HashAlgorithmEnum`, include/ocpp/v2/ocpp_enums.hpp l.36; `hash_algorithm_enum_to_string`, lib/ocpp/v2/ocpp_enums.cpp l.46-57; `string_to_hash_algorithm_enum`, l.59-71. -/
def e_v2_HashAlgorithmEnum : EnumTable :=
  { name := "v2.HashAlgorithmEnum",
    decl := ["SHA256", "SHA384", "SHA512"],
    toS := [("SHA256", "SHA256"), ("SHA384", "SHA384"), ("SHA512", "SHA512")],
    fromS := [("SHA256", "SHA256"), ("SHA384", "SHA384"), ("SHA512", "SHA512")] }

/-- `AuthorizationStatusEnum`, include/ocpp/v2/ocpp_enums.hpp l.58; `authorization_status_enum_to_string`, lib/ocpp/v2/ocpp_enums.cpp l.81-106; `string_to_authorization_status_enum`, l.108-141. -/
def e_v2_AuthorizationStatusEnum : EnumTable :=
  { name := "v2.AuthorizationStatusEnum",
    decl := ["Accepted", "Blocked", "ConcurrentTx", "Expired", "Invalid", "NoCredit", "NotAllowedTypeEVSE", "NotAtThisLocation", "NotAtThisTime",
      "Unknown"],
    toS := [("Accepted", "Accepted"), ("Blocked", "Blocked"), ("ConcurrentTx", "ConcurrentTx"), ("Expired", "Expired"), ("Invalid", "Invalid"),
      ("NoCredit", "NoCredit"), ("NotAllowedTypeEVSE", "NotAllowedTypeEVSE"), ("NotAtThisLocation", "NotAtThisLocation"), ("NotAtThisTime",
      "NotAtThisTime"), ("Unknown", "Unknown")],
    fromS := [("Accepted", "Accepted"), ("Blocked", "Blocked"), ("ConcurrentTx", "ConcurrentTx"), ("Expired", "Expired"), ("Invalid", "Invalid"),
      ("NoCredit", "NoCredit"), ("NotAllowedTypeEVSE", "NotAllowedTypeEVSE"), ("NotAtThisLocation", "NotAtThisLocation"), ("NotAtThisTime",
      "NotAtThisTime"), ("Unknown", "Unknown")] }

/-- `MessageFormatEnum`, include/ocpp/v2/ocpp_enums.hpp l.87; `message_format_enum_to_string`, lib/ocpp/v2/ocpp_enums.cpp l.151-166; `string_to_message_format_enum`, l.168-186. -/
def e_v2_MessageFormatEnum : EnumTable :=
  { name := "v2.MessageFormatEnum",
    decl := ["ASCII", "HTML", "URI", "UTF8", "QRCODE"],
    toS := [("ASCII", "ASCII"), ("HTML", "HTML"), ("URI", "URI"), ("UTF8", "UTF8"), ("QRCODE", "QRCODE")],
    fromS := [("ASCII", "ASCII"), ("HTML", "HTML"), ("URI", "URI"), ("UTF8", "UTF8"), ("QRCODE", "QRCODE")] }

/-- `AuthorizeCertificateStatusEnum`, include/ocpp/v2/ocpp_enums.hpp l.111; `authorize_certificate_status_enum_to_string`, lib/ocpp/v2/ocpp_enums.cpp l.196-215; `string_to_authorize_certificate_status_enum`, l.217-241. -/
def e_v2_AuthorizeCertificateStatusEnum : EnumTable :=
  { name := "v2.AuthorizeCertificateStatusEnum",
    decl := ["Accepted", "SignatureError", "CertificateExpired", "CertificateRevoked", "NoCertificateAvailable", "CertChainError",
      "ContractCancelled"],
    toS := [("Accepted", "Accepted"), ("SignatureError", "SignatureError"), ("CertificateExpired", "CertificateExpired"), ("CertificateRevoked",
      "CertificateRevoked"), ("NoCertificateAvailable", "NoCertificateAvailable"), ("CertChainError", "CertChainError"), ("ContractCancelled",
      "ContractCancelled")],
    fromS := [("Accepted", "Accepted"), ("SignatureError", "SignatureError"), ("CertificateExpired", "CertificateExpired"), ("CertificateRevoked",
      "CertificateRevoked"), ("NoCertificateAvailable", "NoCertificateAvailable"), ("CertChainError", "CertChainError"), ("ContractCancelled",
      "ContractCancelled")] }

/-- `EnergyTransferModeEnum`, include/ocpp/v2/ocpp_enums.hpp l.137; `energy_transfer_mode_enum_to_string`, lib/ocpp/v2/ocpp_enums.cpp l.251-278; `string_to_energy_transfer_mode_enum`, l.280-316. -/
def e_v2_EnergyTransferModeEnum : EnumTable :=
  { name := "v2.EnergyTransferModeEnum",
    decl := ["AC_single_phase", "AC_two_phase", "AC_three_phase", "DC", "AC_BPT", "AC_BPT_DER", "AC_DER", "DC_BPT", "DC_ACDP", "DC_ACDP_BPT", "WPT"],
    toS := [("AC_single_phase", "AC_single_phase"), ("AC_two_phase", "AC_two_phase"), ("AC_three_phase", "AC_three_phase"), ("DC", "DC"), ("AC_BPT",
      "AC_BPT"), ("AC_BPT_DER", "AC_BPT_DER"), ("AC_DER", "AC_DER"), ("DC_BPT", "DC_BPT"), ("DC_ACDP", "DC_ACDP"), ("DC_ACDP_BPT", "DC_ACDP_BPT"),
      ("WPT", "WPT")],
    fromS := [("AC_single_phase", "AC_single_phase"), ("AC_two_phase", "AC_two_phase"), ("AC_three_phase", "AC_three_phase"), ("DC", "DC"), ("AC_BPT",
      "AC_BPT"), ("AC_BPT_DER", "AC_BPT_DER"), ("AC_DER", "AC_DER"), ("DC_BPT", "DC_BPT"), ("DC_ACDP", "DC_ACDP"), ("DC_ACDP_BPT", "DC_ACDP_BPT"),
      ("WPT", "WPT")] }

/-- `DayOfWeekEnum`, include/ocpp/v2/ocpp_enums.hpp l.167; `day_of_week_enum_to_string`, lib/ocpp/v2/ocpp_enums.cpp l.326-345; `string_to_day_of_week_enum`, l.347-371. -/
def e_v2_DayOfWeekEnum : EnumTable :=
  { name := "v2.DayOfWeekEnum",
    decl := ["Monday", "Tuesday", "Wednesday", "Thursday", "Friday", "Saturday", "Sunday"],
    toS := [("Monday", "Monday"), ("Tuesday", "Tuesday"), ("Wednesday", "Wednesday"), ("Thursday", "Thursday"), ("Friday", "Friday"), ("Saturday",
      "Saturday"), ("Sunday", "Sunday")],
    fromS := [("Monday", "Monday"), ("Tuesday", "Tuesday"), ("Wednesday", "Wednesday"), ("Thursday", "Thursday"), ("Friday", "Friday"), ("Saturday",
      "Saturday"), ("Sunday", "Sunday")] }

/-- `EvseKindEnum`, include/ocpp/v2/ocpp_enums.hpp l.193; `evse_kind_enum_to_string`, lib/ocpp/v2/ocpp_enums.cpp l.381-390; `string_to_evse_kind_enum`, l.392-401. -/
def e_v2_EvseKindEnum : EnumTable :=
  { name := "v2.EvseKindEnum",
    decl := ["AC", "DC"],
    toS := [("AC", "AC"), ("DC", "DC")],
    fromS := [("AC", "AC"), ("DC", "DC")] }

/-- `BatterySwapEventEnum`, include/ocpp/v2/ocpp_enums.hpp l.213; `battery_swap_event_enum_to_string`, lib/ocpp/v2/ocpp_enums.cpp l.411-422; `string_to_battery_swap_event_enum`, l.424-436. -/
def e_v2_BatterySwapEventEnum : EnumTable :=
  { name := "v2.BatterySwapEventEnum",
    decl := ["BatteryIn", "BatteryOut", "BatteryOutTimeout"],
    toS := [("BatteryIn", "BatteryIn"), ("BatteryOut", "BatteryOut"), ("BatteryOutTimeout", "BatteryOutTimeout")],
    fromS := [("BatteryIn", "BatteryIn"), ("BatteryOut", "BatteryOut"), ("BatteryOutTimeout", "BatteryOutTimeout")] }

/-- `BootReasonEnum`, include/ocpp/v2/ocpp_enums.hpp l.235; `boot_reason_enum_to_string`, lib/ocpp/v2/ocpp_enums.cpp l.446-469; `string_to_boot_reason_enum`, l.471-501. -/
def e_v2_BootReasonEnum : EnumTable :=
  { name := "v2.BootReasonEnum",
    decl := ["ApplicationReset", "FirmwareUpdate", "LocalReset", "PowerUp", "RemoteReset", "ScheduledReset", "Triggered", "Unknown", "Watchdog"],
    toS := [("ApplicationReset", "ApplicationReset"), ("FirmwareUpdate", "FirmwareUpdate"), ("LocalReset", "LocalReset"), ("PowerUp", "PowerUp"),
      ("RemoteReset", "RemoteReset"), ("ScheduledReset", "ScheduledReset"), ("Triggered", "Triggered"), ("Unknown", "Unknown"), ("Watchdog",
      "Watchdog")],
    fromS := [("ApplicationReset", "ApplicationReset"), ("FirmwareUpdate", "FirmwareUpdate"), ("LocalReset", "LocalReset"), ("PowerUp", "PowerUp"),
      ("RemoteReset", "RemoteReset"), ("ScheduledReset", "ScheduledReset"), ("Triggered", "Triggered"), ("Unknown", "Unknown"), ("Watchdog",
      "Watchdog")] }

/-- `RegistrationStatusEnum`, include/ocpp/v2/ocpp_enums.hpp l.263; `registration_status_enum_to_string`, lib/ocpp/v2/ocpp_enums.cpp l.511-522; `string_to_registration_status_enum`, l.524-536. -/
def e_v2_RegistrationStatusEnum : EnumTable :=
  { name := "v2.RegistrationStatusEnum",
    decl := ["Accepted", "Pending", "Rejected"],
    toS := [("Accepted", "Accepted"), ("Pending", "Pending"), ("Rejected", "Rejected")],
    fromS := [("Accepted", "Accepted"), ("Pending", "Pending"), ("Rejected", "Rejected")] }

/-- `CancelReservationStatusEnum`, include/ocpp/v2/ocpp_enums.hpp l.285; `cancel_reservation_status_enum_to_string`, lib/ocpp/v2/ocpp_enums.cpp l.546-555; `string_to_cancel_reservation_status_enum`, l.557-566. -/
def e_v2_CancelReservationStatusEnum : EnumTable :=
  { name := "v2.CancelReservationStatusEnum",
    decl := ["Accepted", "Rejected"],
    toS := [("Accepted", "Accepted"), ("Rejected", "Rejected")],
    fromS := [("Accepted", "Accepted"), ("Rejected", "Rejected")] }

/-- `CertificateSigningUseEnum`, include/ocpp/v2/ocpp_enums.hpp l.306; `certificate_signing_use_enum_to_string`, lib/ocpp/v2/ocpp_enums.cpp l.576-587; `string_to_certificate_signing_use_enum`, l.589-601. -/
def e_v2_CertificateSigningUseEnum : EnumTable :=
  { name := "v2.CertificateSigningUseEnum",
    decl := ["ChargingStationCertificate", "V2GCertificate", "V2G20Certificate"],
    toS := [("ChargingStationCertificate", "ChargingStationCertificate"), ("V2GCertificate", "V2GCertificate"), ("V2G20Certificate",
      "V2G20Certificate")],
    fromS := [("ChargingStationCertificate", "ChargingStationCertificate"), ("V2GCertificate", "V2GCertificate"), ("V2G20Certificate",
      "V2G20Certificate")] }

/-- `CertificateSignedStatusEnum`, include/ocpp/v2/ocpp_enums.hpp l.328; `certificate_signed_status_enum_to_string`, lib/ocpp/v2/ocpp_enums.cpp l.611-620; `string_to_certificate_signed_status_enum`, l.622-631. -/
def e_v2_CertificateSignedStatusEnum : EnumTable :=
  { name := "v2.CertificateSignedStatusEnum",
    decl := ["Accepted", "Rejected"],
    toS := [("Accepted", "Accepted"), ("Rejected", "Rejected")],
    fromS := [("Accepted", "Accepted"), ("Rejected", "Rejected")] }

/-- `OperationalStatusEnum`, include/ocpp/v2/ocpp_enums.hpp l.349; `operational_status_enum_to_string`, lib/ocpp/v2/ocpp_enums.cpp l.641-650; `string_to_operational_status_enum`, l.652-661. -/
def e_v2_OperationalStatusEnum : EnumTable :=
  { name := "v2.OperationalStatusEnum",
    decl := ["Inoperative", "Operative"],
    toS := [("Inoperative", "Inoperative"), ("Operative", "Operative")],
    fromS := [("Inoperative", "Inoperative"), ("Operative", "Operative")] }

/-- `ChangeAvailabilityStatusEnum`, include/ocpp/v2/ocpp_enums.hpp l.370; `change_availability_status_enum_to_string`, lib/ocpp/v2/ocpp_enums.cpp l.671-682; `string_to_change_availability_status_enum`, l.684-696. -/
def e_v2_ChangeAvailabilityStatusEnum : EnumTable :=
  { name := "v2.ChangeAvailabilityStatusEnum",
    decl := ["Accepted", "Rejected", "Scheduled"],
    toS := [("Accepted", "Accepted"), ("Rejected", "Rejected"), ("Scheduled", "Scheduled")],
    fromS := [("Accepted", "Accepted"), ("Rejected", "Rejected"), ("Scheduled", "Scheduled")] }

/-- `TariffChangeStatusEnum`, include/ocpp/v2/ocpp_enums.hpp l.392; `tariff_change_status_enum_to_string`, lib/ocpp/v2/ocpp_enums.cpp l.706-723; `string_to_tariff_change_status_enum`, l.725-746. -/
def e_v2_TariffChangeStatusEnum : EnumTable :=
  { name := "v2.TariffChangeStatusEnum",
    decl := ["Accepted", "Rejected", "TooManyElements", "ConditionNotSupported", "TxNotFound", "NoCurrencyChange"],
    toS := [("Accepted", "Accepted"), ("Rejected", "Rejected"), ("TooManyElements", "TooManyElements"), ("ConditionNotSupported",
      "ConditionNotSupported"), ("TxNotFound", "TxNotFound"), ("NoCurrencyChange", "NoCurrencyChange")],
    fromS := [("Accepted", "Accepted"), ("Rejected", "Rejected"), ("TooManyElements", "TooManyElements"), ("ConditionNotSupported",
      "ConditionNotSupported"), ("TxNotFound", "TxNotFound"), ("NoCurrencyChange", "NoCurrencyChange")] }

/-- `ClearCacheStatusEnum`, include/ocpp/v2/ocpp_enums.hpp l.417; `clear_cache_status_enum_to_string`, lib/ocpp/v2/ocpp_enums.cpp l.756-765; `string_to_clear_cache_status_enum`, l.767-776. -/
def e_v2_ClearCacheStatusEnum : EnumTable :=
  { name := "v2.ClearCacheStatusEnum",
    decl := ["Accepted", "Rejected"],
    toS := [("Accepted", "Accepted"), ("Rejected", "Rejected")],
    fromS := [("Accepted", "Accepted"), ("Rejected", "Rejected")] }

/-- `ChargingProfilePurposeEnum`, include/ocpp/v2/ocpp_enums.hpp l.438; `charging_profile_purpose_enum_to_string`, lib/ocpp/v2/ocpp_enums.cpp l.786-803; `string_to_charging_profile_purpose_enum`, l.805-826. -/
def e_v2_ChargingProfilePurposeEnum : EnumTable :=
  { name := "v2.ChargingProfilePurposeEnum",
    decl := ["ChargingStationExternalConstraints", "ChargingStationMaxProfile", "TxDefaultProfile", "TxProfile", "PriorityCharging",
      "LocalGeneration"],
    toS := [("ChargingStationExternalConstraints", "ChargingStationExternalConstraints"), ("ChargingStationMaxProfile", "ChargingStationMaxProfile"),
      ("TxDefaultProfile", "TxDefaultProfile"), ("TxProfile", "TxProfile"), ("PriorityCharging", "PriorityCharging"), ("LocalGeneration",
      "LocalGeneration")],
    fromS := [("ChargingStationExternalConstraints", "ChargingStationExternalConstraints"), ("ChargingStationMaxProfile",
      "ChargingStationMaxProfile"), ("TxDefaultProfile", "TxDefaultProfile"), ("TxProfile", "TxProfile"), ("PriorityCharging", "PriorityCharging"),
      ("LocalGeneration", "LocalGeneration")] }

/-- `ClearChargingProfileStatusEnum`, include/ocpp/v2/ocpp_enums.hpp l.463; `clear_charging_profile_status_enum_to_string`, lib/ocpp/v2/ocpp_enums.cpp l.836-845; `string_to_clear_charging_profile_status_enum`, l.847-856. -/
def e_v2_ClearChargingProfileStatusEnum : EnumTable :=
  { name := "v2.ClearChargingProfileStatusEnum",
    decl := ["Accepted", "Unknown"],
    toS := [("Accepted", "Accepted"), ("Unknown", "Unknown")],
    fromS := [("Accepted", "Accepted"), ("Unknown", "Unknown")] }

/-- `DERControlEnum`, include/ocpp/v2/ocpp_enums.hpp l.484; `dercontrol_enum_to_string`, lib/ocpp/v2/ocpp_enums.cpp l.866-915; `string_to_dercontrol_enum`, l.917-986. -/
def e_v2_DERControlEnum : EnumTable :=
  { name := "v2.DERControlEnum",
    decl := ["EnterService", "FreqDroop", "FreqWatt", "FixedPFAbsorb", "FixedPFInject", "FixedVar", "Gradients", "HFMustTrip", "HFMayTrip",
      "HVMustTrip", "HVMomCess", "HVMayTrip", "LimitMaxDischarge", "LFMustTrip", "LVMustTrip", "LVMomCess", "LVMayTrip", "PowerMonitoringMustTrip",
      "VoltVar", "VoltWatt", "WattPF", "WattVar"],
    toS := [("EnterService", "EnterService"), ("FreqDroop", "FreqDroop"), ("FreqWatt", "FreqWatt"), ("FixedPFAbsorb", "FixedPFAbsorb"),
      ("FixedPFInject", "FixedPFInject"), ("FixedVar", "FixedVar"), ("Gradients", "Gradients"), ("HFMustTrip", "HFMustTrip"), ("HFMayTrip",
      "HFMayTrip"), ("HVMustTrip", "HVMustTrip"), ("HVMomCess", "HVMomCess"), ("HVMayTrip", "HVMayTrip"), ("LimitMaxDischarge", "LimitMaxDischarge"),
      ("LFMustTrip", "LFMustTrip"), ("LVMustTrip", "LVMustTrip"), ("LVMomCess", "LVMomCess"), ("LVMayTrip", "LVMayTrip"), ("PowerMonitoringMustTrip",
      "PowerMonitoringMustTrip"), ("VoltVar", "VoltVar"), ("VoltWatt", "VoltWatt"), ("WattPF", "WattPF"), ("WattVar", "WattVar")],
    fromS := [("EnterService", "EnterService"), ("FreqDroop", "FreqDroop"), ("FreqWatt", "FreqWatt"), ("FixedPFAbsorb", "FixedPFAbsorb"),
      ("FixedPFInject", "FixedPFInject"), ("FixedVar", "FixedVar"), ("Gradients", "Gradients"), ("HFMustTrip", "HFMustTrip"), ("HFMayTrip",
      "HFMayTrip"), ("HVMustTrip", "HVMustTrip"), ("HVMomCess", "HVMomCess"), ("HVMayTrip", "HVMayTrip"), ("LimitMaxDischarge", "LimitMaxDischarge"),
      ("LFMustTrip", "LFMustTrip"), ("LVMustTrip", "LVMustTrip"), ("LVMomCess", "LVMomCess"), ("LVMayTrip", "LVMayTrip"), ("PowerMonitoringMustTrip",
      "PowerMonitoringMustTrip"), ("VoltVar", "VoltVar"), ("VoltWatt", "VoltWatt"), ("WattPF", "WattPF"), ("WattVar", "WattVar")] }

/-- `DERControlStatusEnum`, include/ocpp/v2/ocpp_enums.hpp l.525; `dercontrol_status_enum_to_string`, lib/ocpp/v2/ocpp_enums.cpp l.996-1009; `string_to_dercontrol_status_enum`, l.1011-1026. -/
def e_v2_DERControlStatusEnum : EnumTable :=
  { name := "v2.DERControlStatusEnum",
    decl := ["Accepted", "Rejected", "NotSupported", "NotFound"],
    toS := [("Accepted", "Accepted"), ("Rejected", "Rejected"), ("NotSupported", "NotSupported"), ("NotFound", "NotFound")],
    fromS := [("Accepted", "Accepted"), ("Rejected", "Rejected"), ("NotSupported", "NotSupported"), ("NotFound", "NotFound")] }

/-- `ClearMessageStatusEnum`, include/ocpp/v2/ocpp_enums.hpp l.548; `clear_message_status_enum_to_string`, lib/ocpp/v2/ocpp_enums.cpp l.1036-1047; `string_to_clear_message_status_enum`, l.1049-1061. -/
def e_v2_ClearMessageStatusEnum : EnumTable :=
  { name := "v2.ClearMessageStatusEnum",
    decl := ["Accepted", "Unknown", "Rejected"],
    toS := [("Accepted", "Accepted"), ("Unknown", "Unknown"), ("Rejected", "Rejected")],
    fromS := [("Accepted", "Accepted"), ("Unknown", "Unknown"), ("Rejected", "Rejected")] }

/-- `TariffClearStatusEnum`, include/ocpp/v2/ocpp_enums.hpp l.570; `tariff_clear_status_enum_to_string`, lib/ocpp/v2/ocpp_enums.cpp l.1071-1082; `string_to_tariff_clear_status_enum`, l.1084-1096. -/
def e_v2_TariffClearStatusEnum : EnumTable :=
  { name := "v2.TariffClearStatusEnum",
    decl := ["Accepted", "Rejected", "NoTariff"],
    toS := [("Accepted", "Accepted"), ("Rejected", "Rejected"), ("NoTariff", "NoTariff")],
    fromS := [("Accepted", "Accepted"), ("Rejected", "Rejected"), ("NoTariff", "NoTariff")] }

/-- `ClearMonitoringStatusEnum`, include/ocpp/v2/ocpp_enums.hpp l.592; `clear_monitoring_status_enum_to_string`, lib/ocpp/v2/ocpp_enums.cpp l.1106-1117; `string_to_clear_monitoring_status_enum`, l.1119-1131. -/
def e_v2_ClearMonitoringStatusEnum : EnumTable :=
  { name := "v2.ClearMonitoringStatusEnum",
    decl := ["Accepted", "Rejected", "NotFound"],
    toS := [("Accepted", "Accepted"), ("Rejected", "Rejected"), ("NotFound", "NotFound")],
    fromS := [("Accepted", "Accepted"), ("Rejected", "Rejected"), ("NotFound", "NotFound")] }

/-- `CustomerInformationStatusEnum`, include/ocpp/v2/ocpp_enums.hpp l.614; `customer_information_status_enum_to_string`, lib/ocpp/v2/ocpp_enums.cpp l.1141-1152; `string_to_customer_information_status_enum`, l.1154-1166. -/
def e_v2_CustomerInformationStatusEnum : EnumTable :=
  { name := "v2.CustomerInformationStatusEnum",
    decl := ["Accepted", "Rejected", "Invalid"],
    toS := [("Accepted", "Accepted"), ("Rejected", "Rejected"), ("Invalid", "Invalid")],
    fromS := [("Accepted", "Accepted"), ("Rejected", "Rejected"), ("Invalid", "Invalid")] }

/-- `DataTransferStatusEnum`, include/ocpp/v2/ocpp_enums.hpp l.636; `data_transfer_status_enum_to_string`, lib/ocpp/v2/ocpp_enums.cpp l.1176-1189; `string_to_data_transfer_status_enum`, l.1191-1206. -/
def e_v2_DataTransferStatusEnum : EnumTable :=
  { name := "v2.DataTransferStatusEnum",
    decl := ["Accepted", "Rejected", "UnknownMessageId", "UnknownVendorId"],
    toS := [("Accepted", "Accepted"), ("Rejected", "Rejected"), ("UnknownMessageId", "UnknownMessageId"), ("UnknownVendorId", "UnknownVendorId")],
    fromS := [("Accepted", "Accepted"), ("Rejected", "Rejected"), ("UnknownMessageId", "UnknownMessageId"), ("UnknownVendorId", "UnknownVendorId")] }

/-- `DeleteCertificateStatusEnum`, include/ocpp/v2/ocpp_enums.hpp l.659; `delete_certificate_status_enum_to_string`, lib/ocpp/v2/ocpp_enums.cpp l.1216-1227; `string_to_delete_certificate_status_enum`, l.1229-1241. -/
def e_v2_DeleteCertificateStatusEnum : EnumTable :=
  { name := "v2.DeleteCertificateStatusEnum",
    decl := ["Accepted", "Failed", "NotFound"],
    toS := [("Accepted", "Accepted"), ("Failed", "Failed"), ("NotFound", "NotFound")],
    fromS := [("Accepted", "Accepted"), ("Failed", "Failed"), ("NotFound", "NotFound")] }

/-- `FirmwareStatusEnum`, include/ocpp/v2/ocpp_enums.hpp l.681; `firmware_status_enum_to_string`, lib/ocpp/v2/ocpp_enums.cpp l.1251-1284; `string_to_firmware_status_enum`, l.1286-1331. -/
def e_v2_FirmwareStatusEnum : EnumTable :=
  { name := "v2.FirmwareStatusEnum",
    decl := ["Downloaded", "DownloadFailed", "Downloading", "DownloadScheduled", "DownloadPaused", "Idle", "InstallationFailed", "Installing",
      "Installed", "InstallRebooting", "InstallScheduled", "InstallVerificationFailed", "InvalidSignature", "SignatureVerified"],
    toS := [("Downloaded", "Downloaded"), ("DownloadFailed", "DownloadFailed"), ("Downloading", "Downloading"), ("DownloadScheduled",
      "DownloadScheduled"), ("DownloadPaused", "DownloadPaused"), ("Idle", "Idle"), ("InstallationFailed", "InstallationFailed"), ("Installing",
      "Installing"), ("Installed", "Installed"), ("InstallRebooting", "InstallRebooting"), ("InstallScheduled", "InstallScheduled"),
      ("InstallVerificationFailed", "InstallVerificationFailed"), ("InvalidSignature", "InvalidSignature"), ("SignatureVerified",
      "SignatureVerified")],
    fromS := [("Downloaded", "Downloaded"), ("DownloadFailed", "DownloadFailed"), ("Downloading", "Downloading"), ("DownloadScheduled",
      "DownloadScheduled"), ("DownloadPaused", "DownloadPaused"), ("Idle", "Idle"), ("InstallationFailed", "InstallationFailed"), ("Installing",
      "Installing"), ("Installed", "Installed"), ("InstallRebooting", "InstallRebooting"), ("InstallScheduled", "InstallScheduled"),
      ("InstallVerificationFailed", "InstallVerificationFailed"), ("InvalidSignature", "InvalidSignature"), ("SignatureVerified",
      "SignatureVerified")] }

/-- `CertificateActionEnum`, include/ocpp/v2/ocpp_enums.hpp l.714; `certificate_action_enum_to_string`, lib/ocpp/v2/ocpp_enums.cpp l.1341-1350; `string_to_certificate_action_enum`, l.1352-1361. -/
def e_v2_CertificateActionEnum : EnumTable :=
  { name := "v2.CertificateActionEnum",
    decl := ["Install", "Update"],
    toS := [("Install", "Install"), ("Update", "Update")],
    fromS := [("Install", "Install"), ("Update", "Update")] }

/-- `Iso15118EVCertificateStatusEnum`, include/ocpp/v2/ocpp_enums.hpp l.735; `iso15118evcertificate_status_enum_to_string`, lib/ocpp/v2/ocpp_enums.cpp l.1371-1380; `string_to_iso15118evcertificate_status_enum`, l.1382-1391. -/
def e_v2_Iso15118EVCertificateStatusEnum : EnumTable :=
  { name := "v2.Iso15118EVCertificateStatusEnum",
    decl := ["Accepted", "Failed"],
    toS := [("Accepted", "Accepted"), ("Failed", "Failed")],
    fromS := [("Accepted", "Accepted"), ("Failed", "Failed")] }

/-- `ReportBaseEnum`, include/ocpp/v2/ocpp_enums.hpp l.756; `report_base_enum_to_string`, lib/ocpp/v2/ocpp_enums.cpp l.1401-1412; `string_to_report_base_enum`, l.1414-1426. -/
def e_v2_ReportBaseEnum : EnumTable :=
  { name := "v2.ReportBaseEnum",
    decl := ["ConfigurationInventory", "FullInventory", "SummaryInventory"],
    toS := [("ConfigurationInventory", "ConfigurationInventory"), ("FullInventory", "FullInventory"), ("SummaryInventory", "SummaryInventory")],
    fromS := [("ConfigurationInventory", "ConfigurationInventory"), ("FullInventory", "FullInventory"), ("SummaryInventory", "SummaryInventory")] }

/-- `GenericDeviceModelStatusEnum`, include/ocpp/v2/ocpp_enums.hpp l.778; `generic_device_model_status_enum_to_string`, lib/ocpp/v2/ocpp_enums.cpp l.1436-1449; `string_to_generic_device_model_status_enum`, l.1451-1466. -/
def e_v2_GenericDeviceModelStatusEnum : EnumTable :=
  { name := "v2.GenericDeviceModelStatusEnum",
    decl := ["Accepted", "Rejected", "NotSupported", "EmptyResultSet"],
    toS := [("Accepted", "Accepted"), ("Rejected", "Rejected"), ("NotSupported", "NotSupported"), ("EmptyResultSet", "EmptyResultSet")],
    fromS := [("Accepted", "Accepted"), ("Rejected", "Rejected"), ("NotSupported", "NotSupported"), ("EmptyResultSet", "EmptyResultSet")] }

/-- `CertificateStatusSourceEnum`, include/ocpp/v2/ocpp_enums.hpp l.801; `certificate_status_source_enum_to_string`, lib/ocpp/v2/ocpp_enums.cpp l.1476-1485; `string_to_certificate_status_source_enum`, l.1487-1496. -/
def e_v2_CertificateStatusSourceEnum : EnumTable :=
  { name := "v2.CertificateStatusSourceEnum",
    decl := ["CRL", "OCSP"],
    toS := [("CRL", "CRL"), ("OCSP", "OCSP")],
    fromS := [("CRL", "CRL"), ("OCSP", "OCSP")] }

/-- `CertificateStatusEnum`, include/ocpp/v2/ocpp_enums.hpp l.822; `certificate_status_enum_to_string`, lib/ocpp/v2/ocpp_enums.cpp l.1506-1519; `string_to_certificate_status_enum`, l.1521-1536. -/
def e_v2_CertificateStatusEnum : EnumTable :=
  { name := "v2.CertificateStatusEnum",
    decl := ["Good", "Revoked", "Unknown", "Failed"],
    toS := [("Good", "Good"), ("Revoked", "Revoked"), ("Unknown", "Unknown"), ("Failed", "Failed")],
    fromS := [("Good", "Good"), ("Revoked", "Revoked"), ("Unknown", "Unknown"), ("Failed", "Failed")] }

/-- `GetCertificateStatusEnum`, include/ocpp/v2/ocpp_enums.hpp l.845; `get_certificate_status_enum_to_string`, lib/ocpp/v2/ocpp_enums.cpp l.1546-1555; `string_to_get_certificate_status_enum`, l.1557-1566. -/
def e_v2_GetCertificateStatusEnum : EnumTable :=
  { name := "v2.GetCertificateStatusEnum",
    decl := ["Accepted", "Failed"],
    toS := [("Accepted", "Accepted"), ("Failed", "Failed")],
    fromS := [("Accepted", "Accepted"), ("Failed", "Failed")] }

/-- `GetChargingProfileStatusEnum`, include/ocpp/v2/ocpp_enums.hpp l.866; `get_charging_profile_status_enum_to_string`, lib/ocpp/v2/ocpp_enums.cpp l.1576-1585; `string_to_get_charging_profile_status_enum`, l.1587-1596. -/
def e_v2_GetChargingProfileStatusEnum : EnumTable :=
  { name := "v2.GetChargingProfileStatusEnum",
    decl := ["Accepted", "NoProfiles"],
    toS := [("Accepted", "Accepted"), ("NoProfiles", "NoProfiles")],
    fromS := [("Accepted", "Accepted"), ("NoProfiles", "NoProfiles")] }

/-- `ChargingRateUnitEnum`, include/ocpp/v2/ocpp_enums.hpp l.887; `charging_rate_unit_enum_to_string`, lib/ocpp/v2/ocpp_enums.cpp l.1606-1615; `string_to_charging_rate_unit_enum`, l.1617-1626. -/
def e_v2_ChargingRateUnitEnum : EnumTable :=
  { name := "v2.ChargingRateUnitEnum",
    decl := ["W", "A"],
    toS := [("W", "W"), ("A", "A")],
    fromS := [("W", "W"), ("A", "A")] }

/-- `OperationModeEnum`, include/ocpp/v2/ocpp_enums.hpp l.908; `operation_mode_enum_to_string`, lib/ocpp/v2/ocpp_enums.cpp l.1636-1657; `string_to_operation_mode_enum`, l.1659-1686. -/
def e_v2_OperationModeEnum : EnumTable :=
  { name := "v2.OperationModeEnum",
    decl := ["Idle", "ChargingOnly", "CentralSetpoint", "ExternalSetpoint", "ExternalLimits", "CentralFrequency", "LocalFrequency",
      "LocalLoadBalancing"],
    toS := [("Idle", "Idle"), ("ChargingOnly", "ChargingOnly"), ("CentralSetpoint", "CentralSetpoint"), ("ExternalSetpoint", "ExternalSetpoint"),
      ("ExternalLimits", "ExternalLimits"), ("CentralFrequency", "CentralFrequency"), ("LocalFrequency", "LocalFrequency"), ("LocalLoadBalancing",
      "LocalLoadBalancing")],
    fromS := [("Idle", "Idle"), ("ChargingOnly", "ChargingOnly"), ("CentralSetpoint", "CentralSetpoint"), ("ExternalSetpoint", "ExternalSetpoint"),
      ("ExternalLimits", "ExternalLimits"), ("CentralFrequency", "CentralFrequency"), ("LocalFrequency", "LocalFrequency"), ("LocalLoadBalancing",
      "LocalLoadBalancing")] }

/-- `MessagePriorityEnum`, include/ocpp/v2/ocpp_enums.hpp l.935; `message_priority_enum_to_string`, lib/ocpp/v2/ocpp_enums.cpp l.1696-1707; `string_to_message_priority_enum`, l.1709-1721. -/
def e_v2_MessagePriorityEnum : EnumTable :=
  { name := "v2.MessagePriorityEnum",
    decl := ["AlwaysFront", "InFront", "NormalCycle"],
    toS := [("AlwaysFront", "AlwaysFront"), ("InFront", "InFront"), ("NormalCycle", "NormalCycle")],
    fromS := [("AlwaysFront", "AlwaysFront"), ("InFront", "InFront"), ("NormalCycle", "NormalCycle")] }

/-- `MessageStateEnum`, include/ocpp/v2/ocpp_enums.hpp l.957; `message_state_enum_to_string`, lib/ocpp/v2/ocpp_enums.cpp l.1731-1748; `string_to_message_state_enum`, l.1750-1771. -/
def e_v2_MessageStateEnum : EnumTable :=
  { name := "v2.MessageStateEnum",
    decl := ["Charging", "Faulted", "Idle", "Unavailable", "Suspended", "Discharging"],
    toS := [("Charging", "Charging"), ("Faulted", "Faulted"), ("Idle", "Idle"), ("Unavailable", "Unavailable"), ("Suspended", "Suspended"),
      ("Discharging", "Discharging")],
    fromS := [("Charging", "Charging"), ("Faulted", "Faulted"), ("Idle", "Idle"), ("Unavailable", "Unavailable"), ("Suspended", "Suspended"),
      ("Discharging", "Discharging")] }

/-- `GetDisplayMessagesStatusEnum`, include/ocpp/v2/ocpp_enums.hpp l.982; `get_display_messages_status_enum_to_string`, lib/ocpp/v2/ocpp_enums.cpp l.1781-1790; `string_to_get_display_messages_status_enum`, l.1792-1801. -/
def e_v2_GetDisplayMessagesStatusEnum : EnumTable :=
  { name := "v2.GetDisplayMessagesStatusEnum",
    decl := ["Accepted", "Unknown"],
    toS := [("Accepted", "Accepted"), ("Unknown", "Unknown")],
    fromS := [("Accepted", "Accepted"), ("Unknown", "Unknown")] }

/-- `GetCertificateIdUseEnum`, include/ocpp/v2/ocpp_enums.hpp l.1003; `get_certificate_id_use_enum_to_string`, lib/ocpp/v2/ocpp_enums.cpp l.1811-1828; `string_to_get_certificate_id_use_enum`, l.1830-1851. -/
def e_v2_GetCertificateIdUseEnum : EnumTable :=
  { name := "v2.GetCertificateIdUseEnum",
    decl := ["V2GRootCertificate", "MORootCertificate", "CSMSRootCertificate", "V2GCertificateChain", "ManufacturerRootCertificate",
      "OEMRootCertificate"],
    toS := [("V2GRootCertificate", "V2GRootCertificate"), ("MORootCertificate", "MORootCertificate"), ("CSMSRootCertificate", "CSMSRootCertificate"),
      ("V2GCertificateChain", "V2GCertificateChain"), ("ManufacturerRootCertificate", "ManufacturerRootCertificate"), ("OEMRootCertificate",
      "OEMRootCertificate")],
    fromS := [("V2GRootCertificate", "V2GRootCertificate"), ("MORootCertificate", "MORootCertificate"), ("CSMSRootCertificate",
      "CSMSRootCertificate"), ("V2GCertificateChain", "V2GCertificateChain"), ("ManufacturerRootCertificate", "ManufacturerRootCertificate"),
      ("OEMRootCertificate", "OEMRootCertificate")] }

/-- `GetInstalledCertificateStatusEnum`, include/ocpp/v2/ocpp_enums.hpp l.1028; `get_installed_certificate_status_enum_to_string`, lib/ocpp/v2/ocpp_enums.cpp l.1861-1870; `string_to_get_installed_certificate_status_enum`, l.1872-1881. -/
def e_v2_GetInstalledCertificateStatusEnum : EnumTable :=
  { name := "v2.GetInstalledCertificateStatusEnum",
    decl := ["Accepted", "NotFound"],
    toS := [("Accepted", "Accepted"), ("NotFound", "NotFound")],
    fromS := [("Accepted", "Accepted"), ("NotFound", "NotFound")] }

/-- `LogEnum`, include/ocpp/v2/ocpp_enums.hpp l.1050; `log_enum_to_string`, lib/ocpp/v2/ocpp_enums.cpp l.1892-1903; `string_to_log_enum`, l.1905-1917. -/
def e_v2_LogEnum : EnumTable :=
  { name := "v2.LogEnum",
    decl := ["DiagnosticsLog", "SecurityLog", "DataCollectorLog"],
    toS := [("DiagnosticsLog", "DiagnosticsLog"), ("SecurityLog", "SecurityLog"), ("DataCollectorLog", "DataCollectorLog")],
    fromS := [("DiagnosticsLog", "DiagnosticsLog"), ("SecurityLog", "SecurityLog"), ("DataCollectorLog", "DataCollectorLog")] }

/-- `LogStatusEnum`, include/ocpp/v2/ocpp_enums.hpp l.1071; `log_status_enum_to_string`, lib/ocpp/v2/ocpp_enums.cpp l.1927-1938; `string_to_log_status_enum`, l.1940-1952. -/
def e_v2_LogStatusEnum : EnumTable :=
  { name := "v2.LogStatusEnum",
    decl := ["Accepted", "Rejected", "AcceptedCanceled"],
    toS := [("Accepted", "Accepted"), ("Rejected", "Rejected"), ("AcceptedCanceled", "AcceptedCanceled")],
    fromS := [("Accepted", "Accepted"), ("Rejected", "Rejected"), ("AcceptedCanceled", "AcceptedCanceled")] }

/-- `MonitoringCriterionEnum`, include/ocpp/v2/ocpp_enums.hpp l.1093; `monitoring_criterion_enum_to_string`, lib/ocpp/v2/ocpp_enums.cpp l.1962-1973; `string_to_monitoring_criterion_enum`, l.1975-1987. -/
def e_v2_MonitoringCriterionEnum : EnumTable :=
  { name := "v2.MonitoringCriterionEnum",
    decl := ["ThresholdMonitoring", "DeltaMonitoring", "PeriodicMonitoring"],
    toS := [("ThresholdMonitoring", "ThresholdMonitoring"), ("DeltaMonitoring", "DeltaMonitoring"), ("PeriodicMonitoring", "PeriodicMonitoring")],
    fromS := [("ThresholdMonitoring", "ThresholdMonitoring"), ("DeltaMonitoring", "DeltaMonitoring"), ("PeriodicMonitoring", "PeriodicMonitoring")] }

/-- `ComponentCriterionEnum`, include/ocpp/v2/ocpp_enums.hpp l.1115; `component_criterion_enum_to_string`, lib/ocpp/v2/ocpp_enums.cpp l.1997-2010; `string_to_component_criterion_enum`, l.2012-2027. -/
def e_v2_ComponentCriterionEnum : EnumTable :=
  { name := "v2.ComponentCriterionEnum",
    decl := ["Active", "Available", "Enabled", "Problem"],
    toS := [("Active", "Active"), ("Available", "Available"), ("Enabled", "Enabled"), ("Problem", "Problem")],
    fromS := [("Active", "Active"), ("Available", "Available"), ("Enabled", "Enabled"), ("Problem", "Problem")] }

/-- `TariffGetStatusEnum`, include/ocpp/v2/ocpp_enums.hpp l.1138; `tariff_get_status_enum_to_string`, lib/ocpp/v2/ocpp_enums.cpp l.2037-2048; `string_to_tariff_get_status_enum`, l.2050-2062. -/
def e_v2_TariffGetStatusEnum : EnumTable :=
  { name := "v2.TariffGetStatusEnum",
    decl := ["Accepted", "Rejected", "NoTariff"],
    toS := [("Accepted", "Accepted"), ("Rejected", "Rejected"), ("NoTariff", "NoTariff")],
    fromS := [("Accepted", "Accepted"), ("Rejected", "Rejected"), ("NoTariff", "NoTariff")] }

/-- `TariffKindEnum`, include/ocpp/v2/ocpp_enums.hpp l.1160; `tariff_kind_enum_to_string`, lib/ocpp/v2/ocpp_enums.cpp l.2072-2081; `string_to_tariff_kind_enum`, l.2083-2092. -/
def e_v2_TariffKindEnum : EnumTable :=
  { name := "v2.TariffKindEnum",
    decl := ["DefaultTariff", "DriverTariff"],
    toS := [("DefaultTariff", "DefaultTariff"), ("DriverTariff", "DriverTariff")],
    fromS := [("DefaultTariff", "DefaultTariff"), ("DriverTariff", "DriverTariff")] }

/-- `AttributeEnum`, include/ocpp/v2/ocpp_enums.hpp l.1181; `attribute_enum_to_string`, lib/ocpp/v2/ocpp_enums.cpp l.2102-2115; `string_to_attribute_enum`, l.2117-2132. -/
def e_v2_AttributeEnum : EnumTable :=
  { name := "v2.AttributeEnum",
    decl := ["Actual", "Target", "MinSet", "MaxSet"],
    toS := [("Actual", "Actual"), ("Target", "Target"), ("MinSet", "MinSet"), ("MaxSet", "MaxSet")],
    fromS := [("Actual", "Actual"), ("Target", "Target"), ("MinSet", "MinSet"), ("MaxSet", "MaxSet")] }

/-- `GetVariableStatusEnum`, include/ocpp/v2/ocpp_enums.hpp l.1204; `get_variable_status_enum_to_string`, lib/ocpp/v2/ocpp_enums.cpp l.2142-2157; `string_to_get_variable_status_enum`, l.2159-2177. -/
def e_v2_GetVariableStatusEnum : EnumTable :=
  { name := "v2.GetVariableStatusEnum",
    decl := ["Accepted", "Rejected", "UnknownComponent", "UnknownVariable", "NotSupportedAttributeType"],
    toS := [("Accepted", "Accepted"), ("Rejected", "Rejected"), ("UnknownComponent", "UnknownComponent"), ("UnknownVariable", "UnknownVariable"),
      ("NotSupportedAttributeType", "NotSupportedAttributeType")],
    fromS := [("Accepted", "Accepted"), ("Rejected", "Rejected"), ("UnknownComponent", "UnknownComponent"), ("UnknownVariable", "UnknownVariable"),
      ("NotSupportedAttributeType", "NotSupportedAttributeType")] }

/-- `InstallCertificateUseEnum`, include/ocpp/v2/ocpp_enums.hpp l.1228; `install_certificate_use_enum_to_string`, lib/ocpp/v2/ocpp_enums.cpp l.2187-2202; `string_to_install_certificate_use_enum`, l.2204-2222. -/
def e_v2_InstallCertificateUseEnum : EnumTable :=
  { name := "v2.InstallCertificateUseEnum",
    decl := ["V2GRootCertificate", "MORootCertificate", "ManufacturerRootCertificate", "CSMSRootCertificate", "OEMRootCertificate"],
    toS := [("V2GRootCertificate", "V2GRootCertificate"), ("MORootCertificate", "MORootCertificate"), ("ManufacturerRootCertificate",
      "ManufacturerRootCertificate"), ("CSMSRootCertificate", "CSMSRootCertificate"), ("OEMRootCertificate", "OEMRootCertificate")],
    fromS := [("V2GRootCertificate", "V2GRootCertificate"), ("MORootCertificate", "MORootCertificate"), ("ManufacturerRootCertificate",
      "ManufacturerRootCertificate"), ("CSMSRootCertificate", "CSMSRootCertificate"), ("OEMRootCertificate", "OEMRootCertificate")] }

/-- `InstallCertificateStatusEnum`, include/ocpp/v2/ocpp_enums.hpp l.1252; `install_certificate_status_enum_to_string`, lib/ocpp/v2/ocpp_enums.cpp l.2232-2243; `string_to_install_certificate_status_enum`, l.2245-2257. -/
def e_v2_InstallCertificateStatusEnum : EnumTable :=
  { name := "v2.InstallCertificateStatusEnum",
    decl := ["Accepted", "Rejected", "Failed"],
    toS := [("Accepted", "Accepted"), ("Rejected", "Rejected"), ("Failed", "Failed")],
    fromS := [("Accepted", "Accepted"), ("Rejected", "Rejected"), ("Failed", "Failed")] }

/-- `UploadLogStatusEnum`, include/ocpp/v2/ocpp_enums.hpp l.1274; `upload_log_status_enum_to_string`, lib/ocpp/v2/ocpp_enums.cpp l.2267-2288; `string_to_upload_log_status_enum`, l.2290-2317. -/
def e_v2_UploadLogStatusEnum : EnumTable :=
  { name := "v2.UploadLogStatusEnum",
    decl := ["BadMessage", "Idle", "NotSupportedOperation", "PermissionDenied", "Uploaded", "UploadFailure", "Uploading", "AcceptedCanceled"],
    toS := [("BadMessage", "BadMessage"), ("Idle", "Idle"), ("NotSupportedOperation", "NotSupportedOperation"), ("PermissionDenied",
      "PermissionDenied"), ("Uploaded", "Uploaded"), ("UploadFailure", "UploadFailure"), ("Uploading", "Uploading"), ("AcceptedCanceled",
      "AcceptedCanceled")],
    fromS := [("BadMessage", "BadMessage"), ("Idle", "Idle"), ("NotSupportedOperation", "NotSupportedOperation"), ("PermissionDenied",
      "PermissionDenied"), ("Uploaded", "Uploaded"), ("UploadFailure", "UploadFailure"), ("Uploading", "Uploading"), ("AcceptedCanceled",
      "AcceptedCanceled")] }

/-- `MeasurandEnum`, include/ocpp/v2/ocpp_enums.hpp l.1301; `measurand_enum_to_string`, lib/ocpp/v2/ocpp_enums.cpp l.2327-2444; `string_to_measurand_enum`, l.2446-2617. -/
def e_v2_MeasurandEnum : EnumTable :=
  { name := "v2.MeasurandEnum",
    decl := ["Current_Export", "Current_Export_Offered", "Current_Export_Minimum", "Current_Import", "Current_Import_Offered",
      "Current_Import_Minimum", "Current_Offered", "Display_PresentSOC", "Display_MinimumSOC", "Display_TargetSOC", "Display_MaximumSOC",
      "Display_RemainingTimeToMinimumSOC", "Display_RemainingTimeToTargetSOC", "Display_RemainingTimeToMaximumSOC", "Display_ChargingComplete",
      "Display_BatteryEnergyCapacity", "Display_InletHot", "Energy_Active_Export_Interval", "Energy_Active_Export_Register",
      "Energy_Active_Import_Interval", "Energy_Active_Import_Register", "Energy_Active_Import_CableLoss",
      "Energy_Active_Import_LocalGeneration_Register", "Energy_Active_Net", "Energy_Active_Setpoint_Interval", "Energy_Apparent_Export",
      "Energy_Apparent_Import", "Energy_Apparent_Net", "Energy_Reactive_Export_Interval", "Energy_Reactive_Export_Register",
      "Energy_Reactive_Import_Interval", "Energy_Reactive_Import_Register", "Energy_Reactive_Net", "EnergyRequest_Target", "EnergyRequest_Minimum",
      "EnergyRequest_Maximum", "EnergyRequest_Minimum_V2X", "EnergyRequest_Maximum_V2X", "EnergyRequest_Bulk", "Frequency", "Power_Active_Export",
      "Power_Active_Import", "Power_Active_Setpoint", "Power_Active_Residual", "Power_Export_Minimum", "Power_Export_Offered", "Power_Factor",
      "Power_Import_Offered", "Power_Import_Minimum", "Power_Offered", "Power_Reactive_Export", "Power_Reactive_Import", "SoC", "Voltage",
      "Voltage_Minimum", "Voltage_Maximum"],
    toS := [("Current_Export", "Current.Export"), ("Current_Export_Offered", "Current.Export.Offered"), ("Current_Export_Minimum",
      "Current.Export.Minimum"), ("Current_Import", "Current.Import"), ("Current_Import_Offered", "Current.Import.Offered"),
      ("Current_Import_Minimum", "Current.Import.Minimum"), ("Current_Offered", "Current.Offered"), ("Display_PresentSOC", "Display.PresentSOC"),
      ("Display_MinimumSOC", "Display.MinimumSOC"), ("Display_TargetSOC", "Display.TargetSOC"), ("Display_MaximumSOC", "Display.MaximumSOC"),
      ("Display_RemainingTimeToMinimumSOC", "Display.RemainingTimeToMinimumSOC"), ("Display_RemainingTimeToTargetSOC",
      "Display.RemainingTimeToTargetSOC"), ("Display_RemainingTimeToMaximumSOC", "Display.RemainingTimeToMaximumSOC"), ("Display_ChargingComplete",
      "Display.ChargingComplete"), ("Display_BatteryEnergyCapacity", "Display.BatteryEnergyCapacity"), ("Display_InletHot", "Display.InletHot"),
      ("Energy_Active_Export_Interval", "Energy.Active.Export.Interval"), ("Energy_Active_Export_Register", "Energy.Active.Export.Register"),
      ("Energy_Active_Import_Interval", "Energy.Active.Import.Interval"), ("Energy_Active_Import_Register", "Energy.Active.Import.Register"),
      ("Energy_Active_Import_CableLoss", "Energy.Active.Import.CableLoss"), ("Energy_Active_Import_LocalGeneration_Register",
      "Energy.Active.Import.LocalGeneration.Register"), ("Energy_Active_Net", "Energy.Active.Net"), ("Energy_Active_Setpoint_Interval",
      "Energy.Active.Setpoint.Interval"), ("Energy_Apparent_Export", "Energy.Apparent.Export"), ("Energy_Apparent_Import", "Energy.Apparent.Import"),
      ("Energy_Apparent_Net", "Energy.Apparent.Net"), ("Energy_Reactive_Export_Interval", "Energy.Reactive.Export.Interval"),
      ("Energy_Reactive_Export_Register", "Energy.Reactive.Export.Register"), ("Energy_Reactive_Import_Interval", "Energy.Reactive.Import.Interval"),
      ("Energy_Reactive_Import_Register", "Energy.Reactive.Import.Register"), ("Energy_Reactive_Net", "Energy.Reactive.Net"), ("EnergyRequest_Target",
      "EnergyRequest.Target"), ("EnergyRequest_Minimum", "EnergyRequest.Minimum"), ("EnergyRequest_Maximum", "EnergyRequest.Maximum"),
      ("EnergyRequest_Minimum_V2X", "EnergyRequest.Minimum.V2X"), ("EnergyRequest_Maximum_V2X", "EnergyRequest.Maximum.V2X"), ("EnergyRequest_Bulk",
      "EnergyRequest.Bulk"), ("Frequency", "Frequency"), ("Power_Active_Export", "Power.Active.Export"), ("Power_Active_Import",
      "Power.Active.Import"), ("Power_Active_Setpoint", "Power.Active.Setpoint"), ("Power_Active_Residual", "Power.Active.Residual"),
      ("Power_Export_Minimum", "Power.Export.Minimum"), ("Power_Export_Offered", "Power.Export.Offered"), ("Power_Factor", "Power.Factor"),
      ("Power_Import_Offered", "Power.Import.Offered"), ("Power_Import_Minimum", "Power.Import.Minimum"), ("Power_Offered", "Power.Offered"),
      ("Power_Reactive_Export", "Power.Reactive.Export"), ("Power_Reactive_Import", "Power.Reactive.Import"), ("SoC", "SoC"), ("Voltage", "Voltage"),
      ("Voltage_Minimum", "Voltage.Minimum"), ("Voltage_Maximum", "Voltage.Maximum")],
    fromS := [("Current.Export", "Current_Export"), ("Current.Export.Offered", "Current_Export_Offered"), ("Current.Export.Minimum",
      "Current_Export_Minimum"), ("Current.Import", "Current_Import"), ("Current.Import.Offered", "Current_Import_Offered"),
      ("Current.Import.Minimum", "Current_Import_Minimum"), ("Current.Offered", "Current_Offered"), ("Display.PresentSOC", "Display_PresentSOC"),
      ("Display.MinimumSOC", "Display_MinimumSOC"), ("Display.TargetSOC", "Display_TargetSOC"), ("Display.MaximumSOC", "Display_MaximumSOC"),
      ("Display.RemainingTimeToMinimumSOC", "Display_RemainingTimeToMinimumSOC"), ("Display.RemainingTimeToTargetSOC",
      "Display_RemainingTimeToTargetSOC"), ("Display.RemainingTimeToMaximumSOC", "Display_RemainingTimeToMaximumSOC"), ("Display.ChargingComplete",
      "Display_ChargingComplete"), ("Display.BatteryEnergyCapacity", "Display_BatteryEnergyCapacity"), ("Display.InletHot", "Display_InletHot"),
      ("Energy.Active.Export.Interval", "Energy_Active_Export_Interval"), ("Energy.Active.Export.Register", "Energy_Active_Export_Register"),
      ("Energy.Active.Import.Interval", "Energy_Active_Import_Interval"), ("Energy.Active.Import.Register", "Energy_Active_Import_Register"),
      ("Energy.Active.Import.CableLoss", "Energy_Active_Import_CableLoss"), ("Energy.Active.Import.LocalGeneration.Register",
      "Energy_Active_Import_LocalGeneration_Register"), ("Energy.Active.Net", "Energy_Active_Net"), ("Energy.Active.Setpoint.Interval",
      "Energy_Active_Setpoint_Interval"), ("Energy.Apparent.Export", "Energy_Apparent_Export"), ("Energy.Apparent.Import", "Energy_Apparent_Import"),
      ("Energy.Apparent.Net", "Energy_Apparent_Net"), ("Energy.Reactive.Export.Interval", "Energy_Reactive_Export_Interval"),
      ("Energy.Reactive.Export.Register", "Energy_Reactive_Export_Register"), ("Energy.Reactive.Import.Interval", "Energy_Reactive_Import_Interval"),
      ("Energy.Reactive.Import.Register", "Energy_Reactive_Import_Register"), ("Energy.Reactive.Net", "Energy_Reactive_Net"), ("EnergyRequest.Target",
      "EnergyRequest_Target"), ("EnergyRequest.Minimum", "EnergyRequest_Minimum"), ("EnergyRequest.Maximum", "EnergyRequest_Maximum"),
      ("EnergyRequest.Minimum.V2X", "EnergyRequest_Minimum_V2X"), ("EnergyRequest.Maximum.V2X", "EnergyRequest_Maximum_V2X"), ("EnergyRequest.Bulk",
      "EnergyRequest_Bulk"), ("Frequency", "Frequency"), ("Power.Active.Export", "Power_Active_Export"), ("Power.Active.Import",
      "Power_Active_Import"), ("Power.Active.Setpoint", "Power_Active_Setpoint"), ("Power.Active.Residual", "Power_Active_Residual"),
      ("Power.Export.Minimum", "Power_Export_Minimum"), ("Power.Export.Offered", "Power_Export_Offered"), ("Power.Factor", "Power_Factor"),
      ("Power.Import.Offered", "Power_Import_Offered"), ("Power.Import.Minimum", "Power_Import_Minimum"), ("Power.Offered", "Power_Offered"),
      ("Power.Reactive.Export", "Power_Reactive_Export"), ("Power.Reactive.Import", "Power_Reactive_Import"), ("SoC", "SoC"), ("Voltage", "Voltage"),
      ("Voltage.Minimum", "Voltage_Minimum"), ("Voltage.Maximum", "Voltage_Maximum")] }

/-- `ReadingContextEnum`, include/ocpp/v2/ocpp_enums.hpp l.1376; `reading_context_enum_to_string`, lib/ocpp/v2/ocpp_enums.cpp l.2627-2648; `string_to_reading_context_enum`, l.2650-2677. -/
def e_v2_ReadingContextEnum : EnumTable :=
  { name := "v2.ReadingContextEnum",
    decl := ["Interruption_Begin", "Interruption_End", "Other", "Sample_Clock", "Sample_Periodic", "Transaction_Begin", "Transaction_End", "Trigger"],
    toS := [("Interruption_Begin", "Interruption.Begin"), ("Interruption_End", "Interruption.End"), ("Other", "Other"), ("Sample_Clock",
      "Sample.Clock"), ("Sample_Periodic", "Sample.Periodic"), ("Transaction_Begin", "Transaction.Begin"), ("Transaction_End", "Transaction.End"),
      ("Trigger", "Trigger")],
    fromS := [("Interruption.Begin", "Interruption_Begin"), ("Interruption.End", "Interruption_End"), ("Other", "Other"), ("Sample.Clock",
      "Sample_Clock"), ("Sample.Periodic", "Sample_Periodic"), ("Transaction.Begin", "Transaction_Begin"), ("Transaction.End", "Transaction_End"),
      ("Trigger", "Trigger")] }

/-- `PhaseEnum`, include/ocpp/v2/ocpp_enums.hpp l.1403; `phase_enum_to_string`, lib/ocpp/v2/ocpp_enums.cpp l.2687-2712; `string_to_phase_enum`, l.2714-2747. -/
def e_v2_PhaseEnum : EnumTable :=
  { name := "v2.PhaseEnum",
    decl := ["L1", "L2", "L3", "N", "L1_N", "L2_N", "L3_N", "L1_L2", "L2_L3", "L3_L1"],
    toS := [("L1", "L1"), ("L2", "L2"), ("L3", "L3"), ("N", "N"), ("L1_N", "L1-N"), ("L2_N", "L2-N"), ("L3_N", "L3-N"), ("L1_L2", "L1-L2"), ("L2_L3",
      "L2-L3"), ("L3_L1", "L3-L1")],
    fromS := [("L1", "L1"), ("L2", "L2"), ("L3", "L3"), ("N", "N"), ("L1-N", "L1_N"), ("L2-N", "L2_N"), ("L3-N", "L3_N"), ("L1-L2", "L1_L2"),
      ("L2-L3", "L2_L3"), ("L3-L1", "L3_L1")] }

/-- `LocationEnum`, include/ocpp/v2/ocpp_enums.hpp l.1431; `location_enum_to_string`, lib/ocpp/v2/ocpp_enums.cpp l.2757-2774; `string_to_location_enum`, l.2776-2797. -/
def e_v2_LocationEnum : EnumTable :=
  { name := "v2.LocationEnum",
    decl := ["Body", "Cable", "EV", "Inlet", "Outlet", "Upstream"],
    toS := [("Body", "Body"), ("Cable", "Cable"), ("EV", "EV"), ("Inlet", "Inlet"), ("Outlet", "Outlet"), ("Upstream", "Upstream")],
    fromS := [("Body", "Body"), ("Cable", "Cable"), ("EV", "EV"), ("Inlet", "Inlet"), ("Outlet", "Outlet"), ("Upstream", "Upstream")] }

/-- `NotifyAllowedEnergyTransferStatusEnum`, include/ocpp/v2/ocpp_enums.hpp l.1455; `notify_allowed_energy_transfer_status_enum_to_string`, lib/ocpp/v2/ocpp_enums.cpp l.2807-2816; `string_to_notify_allowed_energy_transfer_status_enum`, l.2818-2827. -/
def e_v2_NotifyAllowedEnergyTransferStatusEnum : EnumTable :=
  { name := "v2.NotifyAllowedEnergyTransferStatusEnum",
    decl := ["Accepted", "Rejected"],
    toS := [("Accepted", "Accepted"), ("Rejected", "Rejected")],
    fromS := [("Accepted", "Accepted"), ("Rejected", "Rejected")] }

/-- `CostKindEnum`, include/ocpp/v2/ocpp_enums.hpp l.1477; `cost_kind_enum_to_string`, lib/ocpp/v2/ocpp_enums.cpp l.2838-2849; `string_to_cost_kind_enum`, l.2851-2863. -/
def e_v2_CostKindEnum : EnumTable :=
  { name := "v2.CostKindEnum",
    decl := ["CarbonDioxideEmission", "RelativePricePercentage", "RenewableGenerationPercentage"],
    toS := [("CarbonDioxideEmission", "CarbonDioxideEmission"), ("RelativePricePercentage", "RelativePricePercentage"),
      ("RenewableGenerationPercentage", "RenewableGenerationPercentage")],
    fromS := [("CarbonDioxideEmission", "CarbonDioxideEmission"), ("RelativePricePercentage", "RelativePricePercentage"),
      ("RenewableGenerationPercentage", "RenewableGenerationPercentage")] }

/-- `GridEventFaultEnum`, include/ocpp/v2/ocpp_enums.hpp l.1498; `grid_event_fault_enum_to_string`, lib/ocpp/v2/ocpp_enums.cpp l.2873-2900; `string_to_grid_event_fault_enum`, l.2902-2938. -/
def e_v2_GridEventFaultEnum : EnumTable :=
  { name := "v2.GridEventFaultEnum",
    decl := ["CurrentImbalance", "LocalEmergency", "LowInputPower", "OverCurrent", "OverFrequency", "OverVoltage", "PhaseRotation", "RemoteEmergency",
      "UnderFrequency", "UnderVoltage", "VoltageImbalance"],
    toS := [("CurrentImbalance", "CurrentImbalance"), ("LocalEmergency", "LocalEmergency"), ("LowInputPower", "LowInputPower"), ("OverCurrent",
      "OverCurrent"), ("OverFrequency", "OverFrequency"), ("OverVoltage", "OverVoltage"), ("PhaseRotation", "PhaseRotation"), ("RemoteEmergency",
      "RemoteEmergency"), ("UnderFrequency", "UnderFrequency"), ("UnderVoltage", "UnderVoltage"), ("VoltageImbalance", "VoltageImbalance")],
    fromS := [("CurrentImbalance", "CurrentImbalance"), ("LocalEmergency", "LocalEmergency"), ("LowInputPower", "LowInputPower"), ("OverCurrent",
      "OverCurrent"), ("OverFrequency", "OverFrequency"), ("OverVoltage", "OverVoltage"), ("PhaseRotation", "PhaseRotation"), ("RemoteEmergency",
      "RemoteEmergency"), ("UnderFrequency", "UnderFrequency"), ("UnderVoltage", "UnderVoltage"), ("VoltageImbalance", "VoltageImbalance")] }

/-- `IslandingDetectionEnum`, include/ocpp/v2/ocpp_enums.hpp l.1528; `islanding_detection_enum_to_string`, lib/ocpp/v2/ocpp_enums.cpp l.2948-2983; `string_to_islanding_detection_enum`, l.2985-3033. -/
def e_v2_IslandingDetectionEnum : EnumTable :=
  { name := "v2.IslandingDetectionEnum",
    decl := ["NoAntiIslandingSupport", "RoCoF", "UVP_OVP", "UFP_OFP", "VoltageVectorShift", "ZeroCrossingDetection", "OtherPassive",
      "ImpedanceMeasurement", "ImpedanceAtFrequency", "SlipModeFrequencyShift", "SandiaFrequencyShift", "SandiaVoltageShift", "FrequencyJump",
      "RCLQFactor", "OtherActive"],
    toS := [("NoAntiIslandingSupport", "NoAntiIslandingSupport"), ("RoCoF", "RoCoF"), ("UVP_OVP", "UVP_OVP"), ("UFP_OFP", "UFP_OFP"),
      ("VoltageVectorShift", "VoltageVectorShift"), ("ZeroCrossingDetection", "ZeroCrossingDetection"), ("OtherPassive", "OtherPassive"),
      ("ImpedanceMeasurement", "ImpedanceMeasurement"), ("ImpedanceAtFrequency", "ImpedanceAtFrequency"), ("SlipModeFrequencyShift",
      "SlipModeFrequencyShift"), ("SandiaFrequencyShift", "SandiaFrequencyShift"), ("SandiaVoltageShift", "SandiaVoltageShift"), ("FrequencyJump",
      "FrequencyJump"), ("RCLQFactor", "RCLQFactor"), ("OtherActive", "OtherActive")],
    fromS := [("NoAntiIslandingSupport", "NoAntiIslandingSupport"), ("RoCoF", "RoCoF"), ("UVP_OVP", "UVP_OVP"), ("UFP_OFP", "UFP_OFP"),
      ("VoltageVectorShift", "VoltageVectorShift"), ("ZeroCrossingDetection", "ZeroCrossingDetection"), ("OtherPassive", "OtherPassive"),
      ("ImpedanceMeasurement", "ImpedanceMeasurement"), ("ImpedanceAtFrequency", "ImpedanceAtFrequency"), ("SlipModeFrequencyShift",
      "SlipModeFrequencyShift"), ("SandiaFrequencyShift", "SandiaFrequencyShift"), ("SandiaVoltageShift", "SandiaVoltageShift"), ("FrequencyJump",
      "FrequencyJump"), ("RCLQFactor", "RCLQFactor"), ("OtherActive", "OtherActive")] }

/-- `ControlModeEnum`, include/ocpp/v2/ocpp_enums.hpp l.1562; `control_mode_enum_to_string`, lib/ocpp/v2/ocpp_enums.cpp l.3043-3052; `string_to_control_mode_enum`, l.3054-3063. -/
def e_v2_ControlModeEnum : EnumTable :=
  { name := "v2.ControlModeEnum",
    decl := ["ScheduledControl", "DynamicControl"],
    toS := [("ScheduledControl", "ScheduledControl"), ("DynamicControl", "DynamicControl")],
    fromS := [("ScheduledControl", "ScheduledControl"), ("DynamicControl", "DynamicControl")] }

/-- `MobilityNeedsModeEnum`, include/ocpp/v2/ocpp_enums.hpp l.1583; `mobility_needs_mode_enum_to_string`, lib/ocpp/v2/ocpp_enums.cpp l.3073-3082; `string_to_mobility_needs_mode_enum`, l.3084-3093. -/
def e_v2_MobilityNeedsModeEnum : EnumTable :=
  { name := "v2.MobilityNeedsModeEnum",
    decl := ["EVCC", "EVCC_SECC"],
    toS := [("EVCC", "EVCC"), ("EVCC_SECC", "EVCC_SECC")],
    fromS := [("EVCC", "EVCC"), ("EVCC_SECC", "EVCC_SECC")] }

/-- `NotifyEVChargingNeedsStatusEnum`, include/ocpp/v2/ocpp_enums.hpp l.1604; `notify_evcharging_needs_status_enum_to_string`, lib/ocpp/v2/ocpp_enums.cpp l.3103-3116; `string_to_notify_evcharging_needs_status_enum`, l.3118-3133. -/
def e_v2_NotifyEVChargingNeedsStatusEnum : EnumTable :=
  { name := "v2.NotifyEVChargingNeedsStatusEnum",
    decl := ["Accepted", "Rejected", "Processing", "NoChargingProfile"],
    toS := [("Accepted", "Accepted"), ("Rejected", "Rejected"), ("Processing", "Processing"), ("NoChargingProfile", "NoChargingProfile")],
    fromS := [("Accepted", "Accepted"), ("Rejected", "Rejected"), ("Processing", "Processing"), ("NoChargingProfile", "NoChargingProfile")] }

/-- `EventTriggerEnum`, include/ocpp/v2/ocpp_enums.hpp l.1627; `event_trigger_enum_to_string`, lib/ocpp/v2/ocpp_enums.cpp l.3143-3154; `string_to_event_trigger_enum`, l.3156-3168. -/
def e_v2_EventTriggerEnum : EnumTable :=
  { name := "v2.EventTriggerEnum",
    decl := ["Alerting", "Delta", "Periodic"],
    toS := [("Alerting", "Alerting"), ("Delta", "Delta"), ("Periodic", "Periodic")],
    fromS := [("Alerting", "Alerting"), ("Delta", "Delta"), ("Periodic", "Periodic")] }

/-- `EventNotificationEnum`, include/ocpp/v2/ocpp_enums.hpp l.1649; `event_notification_enum_to_string`, lib/ocpp/v2/ocpp_enums.cpp l.3178-3191; `string_to_event_notification_enum`, l.3193-3208. -/
def e_v2_EventNotificationEnum : EnumTable :=
  { name := "v2.EventNotificationEnum",
    decl := ["HardWiredNotification", "HardWiredMonitor", "PreconfiguredMonitor", "CustomMonitor"],
    toS := [("HardWiredNotification", "HardWiredNotification"), ("HardWiredMonitor", "HardWiredMonitor"), ("PreconfiguredMonitor",
      "PreconfiguredMonitor"), ("CustomMonitor", "CustomMonitor")],
    fromS := [("HardWiredNotification", "HardWiredNotification"), ("HardWiredMonitor", "HardWiredMonitor"), ("PreconfiguredMonitor",
      "PreconfiguredMonitor"), ("CustomMonitor", "CustomMonitor")] }

/-- `MonitorEnum`, include/ocpp/v2/ocpp_enums.hpp l.1672; `monitor_enum_to_string`, lib/ocpp/v2/ocpp_enums.cpp l.3218-3237; `string_to_monitor_enum`, l.3239-3263. -/
def e_v2_MonitorEnum : EnumTable :=
  { name := "v2.MonitorEnum",
    decl := ["UpperThreshold", "LowerThreshold", "Delta", "Periodic", "PeriodicClockAligned", "TargetDelta", "TargetDeltaRelative"],
    toS := [("UpperThreshold", "UpperThreshold"), ("LowerThreshold", "LowerThreshold"), ("Delta", "Delta"), ("Periodic", "Periodic"),
      ("PeriodicClockAligned", "PeriodicClockAligned"), ("TargetDelta", "TargetDelta"), ("TargetDeltaRelative", "TargetDeltaRelative")],
    fromS := [("UpperThreshold", "UpperThreshold"), ("LowerThreshold", "LowerThreshold"), ("Delta", "Delta"), ("Periodic", "Periodic"),
      ("PeriodicClockAligned", "PeriodicClockAligned"), ("TargetDelta", "TargetDelta"), ("TargetDeltaRelative", "TargetDeltaRelative")] }

/-- `MutabilityEnum`, include/ocpp/v2/ocpp_enums.hpp l.1697; `mutability_enum_to_string`, lib/ocpp/v2/ocpp_enums.cpp l.3273-3284; `string_to_mutability_enum`, l.3286-3298. -/
def e_v2_MutabilityEnum : EnumTable :=
  { name := "v2.MutabilityEnum",
    decl := ["ReadOnly", "WriteOnly", "ReadWrite"],
    toS := [("ReadOnly", "ReadOnly"), ("WriteOnly", "WriteOnly"), ("ReadWrite", "ReadWrite")],
    fromS := [("ReadOnly", "ReadOnly"), ("WriteOnly", "WriteOnly"), ("ReadWrite", "ReadWrite")] }

/-- `DataEnum`, include/ocpp/v2/ocpp_enums.hpp l.1719; `data_enum_to_string`, lib/ocpp/v2/ocpp_enums.cpp l.3308-3329; `string_to_data_enum`, l.3331-3358. -/
def e_v2_DataEnum : EnumTable :=
  { name := "v2.DataEnum",
    decl := ["string", "decimal", "integer", "dateTime", "boolean", "OptionList", "SequenceList", "MemberList"],
    toS := [("string", "string"), ("decimal", "decimal"), ("integer", "integer"), ("dateTime", "dateTime"), ("boolean", "boolean"), ("OptionList",
      "OptionList"), ("SequenceList", "SequenceList"), ("MemberList", "MemberList")],
    fromS := [("string", "string"), ("decimal", "decimal"), ("integer", "integer"), ("dateTime", "dateTime"), ("boolean", "boolean"), ("OptionList",
      "OptionList"), ("SequenceList", "SequenceList"), ("MemberList", "MemberList")] }

/-- `PaymentStatusEnum`, include/ocpp/v2/ocpp_enums.hpp l.1745; `payment_status_enum_to_string`, lib/ocpp/v2/ocpp_enums.cpp l.3368-3381; `string_to_payment_status_enum`, l.3383-3398. -/
def e_v2_PaymentStatusEnum : EnumTable :=
  { name := "v2.PaymentStatusEnum",
    decl := ["Settled", "Canceled", "Rejected", "Failed"],
    toS := [("Settled", "Settled"), ("Canceled", "Canceled"), ("Rejected", "Rejected"), ("Failed", "Failed")],
    fromS := [("Settled", "Settled"), ("Canceled", "Canceled"), ("Rejected", "Rejected"), ("Failed", "Failed")] }

/-- `PublishFirmwareStatusEnum`, include/ocpp/v2/ocpp_enums.hpp l.1768; `publish_firmware_status_enum_to_string`, lib/ocpp/v2/ocpp_enums.cpp l.3408-3433; `string_to_publish_firmware_status_enum`, l.3435-3468. -/
def e_v2_PublishFirmwareStatusEnum : EnumTable :=
  { name := "v2.PublishFirmwareStatusEnum",
    decl := ["Idle", "DownloadScheduled", "Downloading", "Downloaded", "Published", "DownloadFailed", "DownloadPaused", "InvalidChecksum",
      "ChecksumVerified", "PublishFailed"],
    toS := [("Idle", "Idle"), ("DownloadScheduled", "DownloadScheduled"), ("Downloading", "Downloading"), ("Downloaded", "Downloaded"), ("Published",
      "Published"), ("DownloadFailed", "DownloadFailed"), ("DownloadPaused", "DownloadPaused"), ("InvalidChecksum", "InvalidChecksum"),
      ("ChecksumVerified", "ChecksumVerified"), ("PublishFailed", "PublishFailed")],
    fromS := [("Idle", "Idle"), ("DownloadScheduled", "DownloadScheduled"), ("Downloading", "Downloading"), ("Downloaded", "Downloaded"),
      ("Published", "Published"), ("DownloadFailed", "DownloadFailed"), ("DownloadPaused", "DownloadPaused"), ("InvalidChecksum", "InvalidChecksum"),
      ("ChecksumVerified", "ChecksumVerified"), ("PublishFailed", "PublishFailed")] }

/-- `ChargingProfileStatusEnum`, include/ocpp/v2/ocpp_enums.hpp l.1797; `charging_profile_status_enum_to_string`, lib/ocpp/v2/ocpp_enums.cpp l.3478-3487; `string_to_charging_profile_status_enum`, l.3489-3498. -/
def e_v2_ChargingProfileStatusEnum : EnumTable :=
  { name := "v2.ChargingProfileStatusEnum",
    decl := ["Accepted", "Rejected"],
    toS := [("Accepted", "Accepted"), ("Rejected", "Rejected")],
    fromS := [("Accepted", "Accepted"), ("Rejected", "Rejected")] }

/-- `ChargingProfileKindEnum`, include/ocpp/v2/ocpp_enums.hpp l.1818; `charging_profile_kind_enum_to_string`, lib/ocpp/v2/ocpp_enums.cpp l.3508-3521; `string_to_charging_profile_kind_enum`, l.3523-3538. -/
def e_v2_ChargingProfileKindEnum : EnumTable :=
  { name := "v2.ChargingProfileKindEnum",
    decl := ["Absolute", "Recurring", "Relative", "Dynamic"],
    toS := [("Absolute", "Absolute"), ("Recurring", "Recurring"), ("Relative", "Relative"), ("Dynamic", "Dynamic")],
    fromS := [("Absolute", "Absolute"), ("Recurring", "Recurring"), ("Relative", "Relative"), ("Dynamic", "Dynamic")] }

/-- `RecurrencyKindEnum`, include/ocpp/v2/ocpp_enums.hpp l.1841; `recurrency_kind_enum_to_string`, lib/ocpp/v2/ocpp_enums.cpp l.3548-3557; `string_to_recurrency_kind_enum`, l.3559-3568. -/
def e_v2_RecurrencyKindEnum : EnumTable :=
  { name := "v2.RecurrencyKindEnum",
    decl := ["Daily", "Weekly"],
    toS := [("Daily", "Daily"), ("Weekly", "Weekly")],
    fromS := [("Daily", "Daily"), ("Weekly", "Weekly")] }

/-- `PowerDuringCessationEnum`, include/ocpp/v2/ocpp_enums.hpp l.1862; `power_during_cessation_enum_to_string`, lib/ocpp/v2/ocpp_enums.cpp l.3578-3587; `string_to_power_during_cessation_enum`, l.3589-3598. -/
def e_v2_PowerDuringCessationEnum : EnumTable :=
  { name := "v2.PowerDuringCessationEnum",
    decl := ["Active", "Reactive"],
    toS := [("Active", "Active"), ("Reactive", "Reactive")],
    fromS := [("Active", "Active"), ("Reactive", "Reactive")] }

/-- `DERUnitEnum`, include/ocpp/v2/ocpp_enums.hpp l.1883; `derunit_enum_to_string`, lib/ocpp/v2/ocpp_enums.cpp l.3608-3625; `string_to_derunit_enum`, l.3627-3648. -/
def e_v2_DERUnitEnum : EnumTable :=
  { name := "v2.DERUnitEnum",
    decl := ["Not_Applicable", "PctMaxW", "PctMaxVar", "PctWAvail", "PctVarAvail", "PctEffectiveV"],
    toS := [("Not_Applicable", "Not_Applicable"), ("PctMaxW", "PctMaxW"), ("PctMaxVar", "PctMaxVar"), ("PctWAvail", "PctWAvail"), ("PctVarAvail",
      "PctVarAvail"), ("PctEffectiveV", "PctEffectiveV")],
    fromS := [("Not_Applicable", "Not_Applicable"), ("PctMaxW", "PctMaxW"), ("PctMaxVar", "PctMaxVar"), ("PctWAvail", "PctWAvail"), ("PctVarAvail",
      "PctVarAvail"), ("PctEffectiveV", "PctEffectiveV")] }

/-- `RequestStartStopStatusEnum`, include/ocpp/v2/ocpp_enums.hpp l.1907; `request_start_stop_status_enum_to_string`, lib/ocpp/v2/ocpp_enums.cpp l.3658-3667; `string_to_request_start_stop_status_enum`, l.3669-3678. -/
def e_v2_RequestStartStopStatusEnum : EnumTable :=
  { name := "v2.RequestStartStopStatusEnum",
    decl := ["Accepted", "Rejected"],
    toS := [("Accepted", "Accepted"), ("Rejected", "Rejected")],
    fromS := [("Accepted", "Accepted"), ("Rejected", "Rejected")] }

/-- `ReservationUpdateStatusEnum`, include/ocpp/v2/ocpp_enums.hpp l.1928; `reservation_update_status_enum_to_string`, lib/ocpp/v2/ocpp_enums.cpp l.3688-3699; `string_to_reservation_update_status_enum`, l.3701-3713. -/
def e_v2_ReservationUpdateStatusEnum : EnumTable :=
  { name := "v2.ReservationUpdateStatusEnum",
    decl := ["Expired", "Removed", "NoTransaction"],
    toS := [("Expired", "Expired"), ("Removed", "Removed"), ("NoTransaction", "NoTransaction")],
    fromS := [("Expired", "Expired"), ("Removed", "Removed"), ("NoTransaction", "NoTransaction")] }

/-- `ReserveNowStatusEnum`, include/ocpp/v2/ocpp_enums.hpp l.1950; `reserve_now_status_enum_to_string`, lib/ocpp/v2/ocpp_enums.cpp l.3723-3738; `string_to_reserve_now_status_enum`, l.3740-3758. -/
def e_v2_ReserveNowStatusEnum : EnumTable :=
  { name := "v2.ReserveNowStatusEnum",
    decl := ["Accepted", "Faulted", "Occupied", "Rejected", "Unavailable"],
    toS := [("Accepted", "Accepted"), ("Faulted", "Faulted"), ("Occupied", "Occupied"), ("Rejected", "Rejected"), ("Unavailable", "Unavailable")],
    fromS := [("Accepted", "Accepted"), ("Faulted", "Faulted"), ("Occupied", "Occupied"), ("Rejected", "Rejected"), ("Unavailable", "Unavailable")] }

/-- `ResetEnum`, include/ocpp/v2/ocpp_enums.hpp l.1974; `reset_enum_to_string`, lib/ocpp/v2/ocpp_enums.cpp l.3768-3779; `string_to_reset_enum`, l.3781-3793. -/
def e_v2_ResetEnum : EnumTable :=
  { name := "v2.ResetEnum",
    decl := ["Immediate", "OnIdle", "ImmediateAndResume"],
    toS := [("Immediate", "Immediate"), ("OnIdle", "OnIdle"), ("ImmediateAndResume", "ImmediateAndResume")],
    fromS := [("Immediate", "Immediate"), ("OnIdle", "OnIdle"), ("ImmediateAndResume", "ImmediateAndResume")] }

/-- `ResetStatusEnum`, include/ocpp/v2/ocpp_enums.hpp l.1995; `reset_status_enum_to_string`, lib/ocpp/v2/ocpp_enums.cpp l.3803-3814; `string_to_reset_status_enum`, l.3816-3828. -/
def e_v2_ResetStatusEnum : EnumTable :=
  { name := "v2.ResetStatusEnum",
    decl := ["Accepted", "Rejected", "Scheduled"],
    toS := [("Accepted", "Accepted"), ("Rejected", "Rejected"), ("Scheduled", "Scheduled")],
    fromS := [("Accepted", "Accepted"), ("Rejected", "Rejected"), ("Scheduled", "Scheduled")] }

/-- `UpdateEnum`, include/ocpp/v2/ocpp_enums.hpp l.2017; `update_enum_to_string`, lib/ocpp/v2/ocpp_enums.cpp l.3838-3847; `string_to_update_enum`, l.3849-3858. -/
def e_v2_UpdateEnum : EnumTable :=
  { name := "v2.UpdateEnum",
    decl := ["Differential", "Full"],
    toS := [("Differential", "Differential"), ("Full", "Full")],
    fromS := [("Differential", "Differential"), ("Full", "Full")] }

/-- `SendLocalListStatusEnum`, include/ocpp/v2/ocpp_enums.hpp l.2037; `send_local_list_status_enum_to_string`, lib/ocpp/v2/ocpp_enums.cpp l.3868-3879; `string_to_send_local_list_status_enum`, l.3881-3893. -/
def e_v2_SendLocalListStatusEnum : EnumTable :=
  { name := "v2.SendLocalListStatusEnum",
    decl := ["Accepted", "Failed", "VersionMismatch"],
    toS := [("Accepted", "Accepted"), ("Failed", "Failed"), ("VersionMismatch", "VersionMismatch")],
    fromS := [("Accepted", "Accepted"), ("Failed", "Failed"), ("VersionMismatch", "VersionMismatch")] }

/-- `TariffSetStatusEnum`, include/ocpp/v2/ocpp_enums.hpp l.2059; `tariff_set_status_enum_to_string`, lib/ocpp/v2/ocpp_enums.cpp l.3903-3918; `string_to_tariff_set_status_enum`, l.3920-3938. -/
def e_v2_TariffSetStatusEnum : EnumTable :=
  { name := "v2.TariffSetStatusEnum",
    decl := ["Accepted", "Rejected", "TooManyElements", "ConditionNotSupported", "DuplicateTariffId"],
    toS := [("Accepted", "Accepted"), ("Rejected", "Rejected"), ("TooManyElements", "TooManyElements"), ("ConditionNotSupported",
      "ConditionNotSupported"), ("DuplicateTariffId", "DuplicateTariffId")],
    fromS := [("Accepted", "Accepted"), ("Rejected", "Rejected"), ("TooManyElements", "TooManyElements"), ("ConditionNotSupported",
      "ConditionNotSupported"), ("DuplicateTariffId", "DuplicateTariffId")] }

/-- `DisplayMessageStatusEnum`, include/ocpp/v2/ocpp_enums.hpp l.2083; `display_message_status_enum_to_string`, lib/ocpp/v2/ocpp_enums.cpp l.3948-3967; `string_to_display_message_status_enum`, l.3969-3993. -/
def e_v2_DisplayMessageStatusEnum : EnumTable :=
  { name := "v2.DisplayMessageStatusEnum",
    decl := ["Accepted", "NotSupportedMessageFormat", "Rejected", "NotSupportedPriority", "NotSupportedState", "UnknownTransaction",
      "LanguageNotSupported"],
    toS := [("Accepted", "Accepted"), ("NotSupportedMessageFormat", "NotSupportedMessageFormat"), ("Rejected", "Rejected"), ("NotSupportedPriority",
      "NotSupportedPriority"), ("NotSupportedState", "NotSupportedState"), ("UnknownTransaction", "UnknownTransaction"), ("LanguageNotSupported",
      "LanguageNotSupported")],
    fromS := [("Accepted", "Accepted"), ("NotSupportedMessageFormat", "NotSupportedMessageFormat"), ("Rejected", "Rejected"), ("NotSupportedPriority",
      "NotSupportedPriority"), ("NotSupportedState", "NotSupportedState"), ("UnknownTransaction", "UnknownTransaction"), ("LanguageNotSupported",
      "LanguageNotSupported")] }

/-- `MonitoringBaseEnum`, include/ocpp/v2/ocpp_enums.hpp l.2109; `monitoring_base_enum_to_string`, lib/ocpp/v2/ocpp_enums.cpp l.4003-4014; `string_to_monitoring_base_enum`, l.4016-4028. -/
def e_v2_MonitoringBaseEnum : EnumTable :=
  { name := "v2.MonitoringBaseEnum",
    decl := ["All", "FactoryDefault", "HardWiredOnly"],
    toS := [("All", "All"), ("FactoryDefault", "FactoryDefault"), ("HardWiredOnly", "HardWiredOnly")],
    fromS := [("All", "All"), ("FactoryDefault", "FactoryDefault"), ("HardWiredOnly", "HardWiredOnly")] }

/-- `APNAuthenticationEnum`, include/ocpp/v2/ocpp_enums.hpp l.2131; `apnauthentication_enum_to_string`, lib/ocpp/v2/ocpp_enums.cpp l.4038-4051; `string_to_apnauthentication_enum`, l.4053-4068. -/
def e_v2_APNAuthenticationEnum : EnumTable :=
  { name := "v2.APNAuthenticationEnum",
    decl := ["PAP", "CHAP", "NONE", "AUTO"],
    toS := [("PAP", "PAP"), ("CHAP", "CHAP"), ("NONE", "NONE"), ("AUTO", "AUTO")],
    fromS := [("PAP", "PAP"), ("CHAP", "CHAP"), ("NONE", "NONE"), ("AUTO", "AUTO")] }

/-- `OCPPVersionEnum`, include/ocpp/v2/ocpp_enums.hpp l.2154; `ocppversion_enum_to_string`, lib/ocpp/v2/ocpp_enums.cpp l.4078-4095; `string_to_ocppversion_enum`, l.4097-4118. -/
def e_v2_OCPPVersionEnum : EnumTable :=
  { name := "v2.OCPPVersionEnum",
    decl := ["OCPP12", "OCPP15", "OCPP16", "OCPP20", "OCPP201", "OCPP21"],
    toS := [("OCPP12", "OCPP12"), ("OCPP15", "OCPP15"), ("OCPP16", "OCPP16"), ("OCPP20", "OCPP20"), ("OCPP201", "OCPP201"), ("OCPP21", "OCPP21")],
    fromS := [("OCPP12", "OCPP12"), ("OCPP15", "OCPP15"), ("OCPP16", "OCPP16"), ("OCPP20", "OCPP20"), ("OCPP201", "OCPP201"), ("OCPP21", "OCPP21")] }

/-- `OCPPInterfaceEnum`, include/ocpp/v2/ocpp_enums.hpp l.2179; `ocppinterface_enum_to_string`, lib/ocpp/v2/ocpp_enums.cpp l.4128-4151; `string_to_ocppinterface_enum`, l.4153-4183. -/
def e_v2_OCPPInterfaceEnum : EnumTable :=
  { name := "v2.OCPPInterfaceEnum",
    decl := ["Wired0", "Wired1", "Wired2", "Wired3", "Wireless0", "Wireless1", "Wireless2", "Wireless3", "Any"],
    toS := [("Wired0", "Wired0"), ("Wired1", "Wired1"), ("Wired2", "Wired2"), ("Wired3", "Wired3"), ("Wireless0", "Wireless0"), ("Wireless1",
      "Wireless1"), ("Wireless2", "Wireless2"), ("Wireless3", "Wireless3"), ("Any", "Any")],
    fromS := [("Wired0", "Wired0"), ("Wired1", "Wired1"), ("Wired2", "Wired2"), ("Wired3", "Wired3"), ("Wireless0", "Wireless0"), ("Wireless1",
      "Wireless1"), ("Wireless2", "Wireless2"), ("Wireless3", "Wireless3"), ("Any", "Any")] }

/-- `OCPPTransportEnum`, include/ocpp/v2/ocpp_enums.hpp l.2207; `ocpptransport_enum_to_string`, lib/ocpp/v2/ocpp_enums.cpp l.4193-4202; `string_to_ocpptransport_enum`, l.4204-4213. -/
def e_v2_OCPPTransportEnum : EnumTable :=
  { name := "v2.OCPPTransportEnum",
    decl := ["SOAP", "JSON"],
    toS := [("SOAP", "SOAP"), ("JSON", "JSON")],
    fromS := [("SOAP", "SOAP"), ("JSON", "JSON")] }

/-- `VPNEnum`, include/ocpp/v2/ocpp_enums.hpp l.2228; `vpnenum_to_string`, lib/ocpp/v2/ocpp_enums.cpp l.4223-4236; `string_to_vpnenum`, l.4238-4253. -/
def e_v2_VPNEnum : EnumTable :=
  { name := "v2.VPNEnum",
    decl := ["IKEv2", "IPSec", "L2TP", "PPTP"],
    toS := [("IKEv2", "IKEv2"), ("IPSec", "IPSec"), ("L2TP", "L2TP"), ("PPTP", "PPTP")],
    fromS := [("IKEv2", "IKEv2"), ("IPSec", "IPSec"), ("L2TP", "L2TP"), ("PPTP", "PPTP")] }

/-- `SetNetworkProfileStatusEnum`, include/ocpp/v2/ocpp_enums.hpp l.2250; `set_network_profile_status_enum_to_string`, lib/ocpp/v2/ocpp_enums.cpp l.4263-4274; `string_to_set_network_profile_status_enum`, l.4276-4288. -/
def e_v2_SetNetworkProfileStatusEnum : EnumTable :=
  { name := "v2.SetNetworkProfileStatusEnum",
    decl := ["Accepted", "Rejected", "Failed"],
    toS := [("Accepted", "Accepted"), ("Rejected", "Rejected"), ("Failed", "Failed")],
    fromS := [("Accepted", "Accepted"), ("Rejected", "Rejected"), ("Failed", "Failed")] }

/-- `SetMonitoringStatusEnum`, include/ocpp/v2/ocpp_enums.hpp l.2272; `set_monitoring_status_enum_to_string`, lib/ocpp/v2/ocpp_enums.cpp l.4298-4315; `string_to_set_monitoring_status_enum`, l.4317-4338. -/
def e_v2_SetMonitoringStatusEnum : EnumTable :=
  { name := "v2.SetMonitoringStatusEnum",
    decl := ["Accepted", "UnknownComponent", "UnknownVariable", "UnsupportedMonitorType", "Rejected", "Duplicate"],
    toS := [("Accepted", "Accepted"), ("UnknownComponent", "UnknownComponent"), ("UnknownVariable", "UnknownVariable"), ("UnsupportedMonitorType",
      "UnsupportedMonitorType"), ("Rejected", "Rejected"), ("Duplicate", "Duplicate")],
    fromS := [("Accepted", "Accepted"), ("UnknownComponent", "UnknownComponent"), ("UnknownVariable", "UnknownVariable"), ("UnsupportedMonitorType",
      "UnsupportedMonitorType"), ("Rejected", "Rejected"), ("Duplicate", "Duplicate")] }

/-- `SetVariableStatusEnum`, include/ocpp/v2/ocpp_enums.hpp l.2297; `set_variable_status_enum_to_string`, lib/ocpp/v2/ocpp_enums.cpp l.4348-4365; `string_to_set_variable_status_enum`, l.4367-4388. -/
def e_v2_SetVariableStatusEnum : EnumTable :=
  { name := "v2.SetVariableStatusEnum",
    decl := ["Accepted", "Rejected", "UnknownComponent", "UnknownVariable", "NotSupportedAttributeType", "RebootRequired"],
    toS := [("Accepted", "Accepted"), ("Rejected", "Rejected"), ("UnknownComponent", "UnknownComponent"), ("UnknownVariable", "UnknownVariable"),
      ("NotSupportedAttributeType", "NotSupportedAttributeType"), ("RebootRequired", "RebootRequired")],
    fromS := [("Accepted", "Accepted"), ("Rejected", "Rejected"), ("UnknownComponent", "UnknownComponent"), ("UnknownVariable", "UnknownVariable"),
      ("NotSupportedAttributeType", "NotSupportedAttributeType"), ("RebootRequired", "RebootRequired")] }

/-- `ConnectorStatusEnum`, include/ocpp/v2/ocpp_enums.hpp l.2322; `connector_status_enum_to_string`, lib/ocpp/v2/ocpp_enums.cpp l.4398-4413; `string_to_connector_status_enum`, l.4415-4433. -/
def e_v2_ConnectorStatusEnum : EnumTable :=
  { name := "v2.ConnectorStatusEnum",
    decl := ["Available", "Occupied", "Reserved", "Unavailable", "Faulted"],
    toS := [("Available", "Available"), ("Occupied", "Occupied"), ("Reserved", "Reserved"), ("Unavailable", "Unavailable"), ("Faulted", "Faulted")],
    fromS := [("Available", "Available"), ("Occupied", "Occupied"), ("Reserved", "Reserved"), ("Unavailable", "Unavailable"), ("Faulted", "Faulted")]
      }

/-- `CostDimensionEnum`, include/ocpp/v2/ocpp_enums.hpp l.2346; `cost_dimension_enum_to_string`, lib/ocpp/v2/ocpp_enums.cpp l.4443-4462; `string_to_cost_dimension_enum`, l.4464-4488. -/
def e_v2_CostDimensionEnum : EnumTable :=
  { name := "v2.CostDimensionEnum",
    decl := ["Energy", "MaxCurrent", "MinCurrent", "MaxPower", "MinPower", "IdleTIme", "ChargingTime"],
    toS := [("Energy", "Energy"), ("MaxCurrent", "MaxCurrent"), ("MinCurrent", "MinCurrent"), ("MaxPower", "MaxPower"), ("MinPower", "MinPower"),
      ("IdleTIme", "IdleTIme"), ("ChargingTime", "ChargingTime")],
    fromS := [("Energy", "Energy"), ("MaxCurrent", "MaxCurrent"), ("MinCurrent", "MinCurrent"), ("MaxPower", "MaxPower"), ("MinPower", "MinPower"),
      ("IdleTIme", "IdleTIme"), ("ChargingTime", "ChargingTime")] }

/-- `TariffCostEnum`, include/ocpp/v2/ocpp_enums.hpp l.2372; `tariff_cost_enum_to_string`, lib/ocpp/v2/ocpp_enums.cpp l.4498-4509; `string_to_tariff_cost_enum`, l.4511-4523. -/
def e_v2_TariffCostEnum : EnumTable :=
  { name := "v2.TariffCostEnum",
    decl := ["NormalCost", "MinCost", "MaxCost"],
    toS := [("NormalCost", "NormalCost"), ("MinCost", "MinCost"), ("MaxCost", "MaxCost")],
    fromS := [("NormalCost", "NormalCost"), ("MinCost", "MinCost"), ("MaxCost", "MaxCost")] }

/-- `TransactionEventEnum`, include/ocpp/v2/ocpp_enums.hpp l.2394; `transaction_event_enum_to_string`, lib/ocpp/v2/ocpp_enums.cpp l.4533-4544; `string_to_transaction_event_enum`, l.4546-4558. -/
def e_v2_TransactionEventEnum : EnumTable :=
  { name := "v2.TransactionEventEnum",
    decl := ["Ended", "Started", "Updated"],
    toS := [("Ended", "Ended"), ("Started", "Started"), ("Updated", "Updated")],
    fromS := [("Ended", "Ended"), ("Started", "Started"), ("Updated", "Updated")] }

/-- `TriggerReasonEnum`, include/ocpp/v2/ocpp_enums.hpp l.2416; `trigger_reason_enum_to_string`, lib/ocpp/v2/ocpp_enums.cpp l.4568-4631; `string_to_trigger_reason_enum`, l.4633-4723. -/
def e_v2_TriggerReasonEnum : EnumTable :=
  { name := "v2.TriggerReasonEnum",
    decl := ["AbnormalCondition", "Authorized", "CablePluggedIn", "ChargingRateChanged", "ChargingStateChanged", "CostLimitReached", "Deauthorized",
      "EnergyLimitReached", "EVCommunicationLost", "EVConnectTimeout", "EVDeparted", "EVDetected", "LimitSet", "MeterValueClock",
      "MeterValuePeriodic", "OperationModeChanged", "RemoteStart", "RemoteStop", "ResetCommand", "RunningCost", "SignedDataReceived",
      "SoCLimitReached", "StopAuthorized", "TariffChanged", "TariffNotAccepted", "TimeLimitReached", "Trigger", "TxResumed", "UnlockCommand"],
    toS := [("AbnormalCondition", "AbnormalCondition"), ("Authorized", "Authorized"), ("CablePluggedIn", "CablePluggedIn"), ("ChargingRateChanged",
      "ChargingRateChanged"), ("ChargingStateChanged", "ChargingStateChanged"), ("CostLimitReached", "CostLimitReached"), ("Deauthorized",
      "Deauthorized"), ("EnergyLimitReached", "EnergyLimitReached"), ("EVCommunicationLost", "EVCommunicationLost"), ("EVConnectTimeout",
      "EVConnectTimeout"), ("EVDeparted", "EVDeparted"), ("EVDetected", "EVDetected"), ("LimitSet", "LimitSet"), ("MeterValueClock",
      "MeterValueClock"), ("MeterValuePeriodic", "MeterValuePeriodic"), ("OperationModeChanged", "OperationModeChanged"), ("RemoteStart",
      "RemoteStart"), ("RemoteStop", "RemoteStop"), ("ResetCommand", "ResetCommand"), ("RunningCost", "RunningCost"), ("SignedDataReceived",
      "SignedDataReceived"), ("SoCLimitReached", "SoCLimitReached"), ("StopAuthorized", "StopAuthorized"), ("TariffChanged", "TariffChanged"),
      ("TariffNotAccepted", "TariffNotAccepted"), ("TimeLimitReached", "TimeLimitReached"), ("Trigger", "Trigger"), ("TxResumed", "TxResumed"),
      ("UnlockCommand", "UnlockCommand")],
    fromS := [("AbnormalCondition", "AbnormalCondition"), ("Authorized", "Authorized"), ("CablePluggedIn", "CablePluggedIn"), ("ChargingRateChanged",
      "ChargingRateChanged"), ("ChargingStateChanged", "ChargingStateChanged"), ("CostLimitReached", "CostLimitReached"), ("Deauthorized",
      "Deauthorized"), ("EnergyLimitReached", "EnergyLimitReached"), ("EVCommunicationLost", "EVCommunicationLost"), ("EVConnectTimeout",
      "EVConnectTimeout"), ("EVDeparted", "EVDeparted"), ("EVDetected", "EVDetected"), ("LimitSet", "LimitSet"), ("MeterValueClock",
      "MeterValueClock"), ("MeterValuePeriodic", "MeterValuePeriodic"), ("OperationModeChanged", "OperationModeChanged"), ("RemoteStart",
      "RemoteStart"), ("RemoteStop", "RemoteStop"), ("ResetCommand", "ResetCommand"), ("RunningCost", "RunningCost"), ("SignedDataReceived",
      "SignedDataReceived"), ("SoCLimitReached", "SoCLimitReached"), ("StopAuthorized", "StopAuthorized"), ("TariffChanged", "TariffChanged"),
      ("TariffNotAccepted", "TariffNotAccepted"), ("TimeLimitReached", "TimeLimitReached"), ("Trigger", "Trigger"), ("TxResumed", "TxResumed"),
      ("UnlockCommand", "UnlockCommand")] }

/-- `PreconditioningStatusEnum`, include/ocpp/v2/ocpp_enums.hpp l.2464; `preconditioning_status_enum_to_string`, lib/ocpp/v2/ocpp_enums.cpp l.4733-4746; `string_to_preconditioning_status_enum`, l.4748-4763. -/
def e_v2_PreconditioningStatusEnum : EnumTable :=
  { name := "v2.PreconditioningStatusEnum",
    decl := ["Unknown", "Ready", "NotReady", "Preconditioning"],
    toS := [("Unknown", "Unknown"), ("Ready", "Ready"), ("NotReady", "NotReady"), ("Preconditioning", "Preconditioning")],
    fromS := [("Unknown", "Unknown"), ("Ready", "Ready"), ("NotReady", "NotReady"), ("Preconditioning", "Preconditioning")] }

/-- `ChargingStateEnum`, include/ocpp/v2/ocpp_enums.hpp l.2487; `charging_state_enum_to_string`, lib/ocpp/v2/ocpp_enums.cpp l.4773-4788; `string_to_charging_state_enum`, l.4790-4808. -/
def e_v2_ChargingStateEnum : EnumTable :=
  { name := "v2.ChargingStateEnum",
    decl := ["EVConnected", "Charging", "SuspendedEV", "SuspendedEVSE", "Idle"],
    toS := [("EVConnected", "EVConnected"), ("Charging", "Charging"), ("SuspendedEV", "SuspendedEV"), ("SuspendedEVSE", "SuspendedEVSE"), ("Idle",
      "Idle")],
    fromS := [("EVConnected", "EVConnected"), ("Charging", "Charging"), ("SuspendedEV", "SuspendedEV"), ("SuspendedEVSE", "SuspendedEVSE"), ("Idle",
      "Idle")] }

/-- `ReasonEnum`, include/ocpp/v2/ocpp_enums.hpp l.2511; `reason_enum_to_string`, lib/ocpp/v2/ocpp_enums.cpp l.4818-4863; `string_to_reason_enum`, l.4865-4928. -/
def e_v2_ReasonEnum : EnumTable :=
  { name := "v2.ReasonEnum",
    decl := ["DeAuthorized", "EmergencyStop", "EnergyLimitReached", "EVDisconnected", "GroundFault", "ImmediateReset", "MasterPass", "Local",
      "LocalOutOfCredit", "Other", "OvercurrentFault", "PowerLoss", "PowerQuality", "Reboot", "Remote", "SOCLimitReached", "StoppedByEV",
      "TimeLimitReached", "Timeout", "ReqEnergyTransferRejected"],
    toS := [("DeAuthorized", "DeAuthorized"), ("EmergencyStop", "EmergencyStop"), ("EnergyLimitReached", "EnergyLimitReached"), ("EVDisconnected",
      "EVDisconnected"), ("GroundFault", "GroundFault"), ("ImmediateReset", "ImmediateReset"), ("MasterPass", "MasterPass"), ("Local", "Local"),
      ("LocalOutOfCredit", "LocalOutOfCredit"), ("Other", "Other"), ("OvercurrentFault", "OvercurrentFault"), ("PowerLoss", "PowerLoss"),
      ("PowerQuality", "PowerQuality"), ("Reboot", "Reboot"), ("Remote", "Remote"), ("SOCLimitReached", "SOCLimitReached"), ("StoppedByEV",
      "StoppedByEV"), ("TimeLimitReached", "TimeLimitReached"), ("Timeout", "Timeout"), ("ReqEnergyTransferRejected", "ReqEnergyTransferRejected")],
    fromS := [("DeAuthorized", "DeAuthorized"), ("EmergencyStop", "EmergencyStop"), ("EnergyLimitReached", "EnergyLimitReached"), ("EVDisconnected",
      "EVDisconnected"), ("GroundFault", "GroundFault"), ("ImmediateReset", "ImmediateReset"), ("MasterPass", "MasterPass"), ("Local", "Local"),
      ("LocalOutOfCredit", "LocalOutOfCredit"), ("Other", "Other"), ("OvercurrentFault", "OvercurrentFault"), ("PowerLoss", "PowerLoss"),
      ("PowerQuality", "PowerQuality"), ("Reboot", "Reboot"), ("Remote", "Remote"), ("SOCLimitReached", "SOCLimitReached"), ("StoppedByEV",
      "StoppedByEV"), ("TimeLimitReached", "TimeLimitReached"), ("Timeout", "Timeout"), ("ReqEnergyTransferRejected", "ReqEnergyTransferRejected")] }

/-- `MessageTriggerEnum`, include/ocpp/v2/ocpp_enums.hpp l.2549; `message_trigger_enum_to_string`, lib/ocpp/v2/ocpp_enums.cpp l.4938-4969; `string_to_message_trigger_enum`, l.4971-5013. -/
def e_v2_MessageTriggerEnum : EnumTable :=
  { name := "v2.MessageTriggerEnum",
    decl := ["BootNotification", "LogStatusNotification", "FirmwareStatusNotification", "Heartbeat", "MeterValues", "SignChargingStationCertificate",
      "SignV2GCertificate", "SignV2G20Certificate", "StatusNotification", "TransactionEvent", "SignCombinedCertificate",
      "PublishFirmwareStatusNotification", "CustomTrigger"],
    toS := [("BootNotification", "BootNotification"), ("LogStatusNotification", "LogStatusNotification"), ("FirmwareStatusNotification",
      "FirmwareStatusNotification"), ("Heartbeat", "Heartbeat"), ("MeterValues", "MeterValues"), ("SignChargingStationCertificate",
      "SignChargingStationCertificate"), ("SignV2GCertificate", "SignV2GCertificate"), ("SignV2G20Certificate", "SignV2G20Certificate"),
      ("StatusNotification", "StatusNotification"), ("TransactionEvent", "TransactionEvent"), ("SignCombinedCertificate", "SignCombinedCertificate"),
      ("PublishFirmwareStatusNotification", "PublishFirmwareStatusNotification"), ("CustomTrigger", "CustomTrigger")],
    fromS := [("BootNotification", "BootNotification"), ("LogStatusNotification", "LogStatusNotification"), ("FirmwareStatusNotification",
      "FirmwareStatusNotification"), ("Heartbeat", "Heartbeat"), ("MeterValues", "MeterValues"), ("SignChargingStationCertificate",
      "SignChargingStationCertificate"), ("SignV2GCertificate", "SignV2GCertificate"), ("SignV2G20Certificate", "SignV2G20Certificate"),
      ("StatusNotification", "StatusNotification"), ("TransactionEvent", "TransactionEvent"), ("SignCombinedCertificate", "SignCombinedCertificate"),
      ("PublishFirmwareStatusNotification", "PublishFirmwareStatusNotification"), ("CustomTrigger", "CustomTrigger")] }

/-- `TriggerMessageStatusEnum`, include/ocpp/v2/ocpp_enums.hpp l.2581; `trigger_message_status_enum_to_string`, lib/ocpp/v2/ocpp_enums.cpp l.5023-5034; `string_to_trigger_message_status_enum`, l.5036-5048. -/
def e_v2_TriggerMessageStatusEnum : EnumTable :=
  { name := "v2.TriggerMessageStatusEnum",
    decl := ["Accepted", "Rejected", "NotImplemented"],
    toS := [("Accepted", "Accepted"), ("Rejected", "Rejected"), ("NotImplemented", "NotImplemented")],
    fromS := [("Accepted", "Accepted"), ("Rejected", "Rejected"), ("NotImplemented", "NotImplemented")] }

/-- `UnlockStatusEnum`, include/ocpp/v2/ocpp_enums.hpp l.2603; `unlock_status_enum_to_string`, lib/ocpp/v2/ocpp_enums.cpp l.5058-5071; `string_to_unlock_status_enum`, l.5073-5088. -/
def e_v2_UnlockStatusEnum : EnumTable :=
  { name := "v2.UnlockStatusEnum",
    decl := ["Unlocked", "UnlockFailed", "OngoingAuthorizedTransaction", "UnknownConnector"],
    toS := [("Unlocked", "Unlocked"), ("UnlockFailed", "UnlockFailed"), ("OngoingAuthorizedTransaction", "OngoingAuthorizedTransaction"),
      ("UnknownConnector", "UnknownConnector")],
    fromS := [("Unlocked", "Unlocked"), ("UnlockFailed", "UnlockFailed"), ("OngoingAuthorizedTransaction", "OngoingAuthorizedTransaction"),
      ("UnknownConnector", "UnknownConnector")] }

/-- `UnpublishFirmwareStatusEnum`, include/ocpp/v2/ocpp_enums.hpp l.2626; `unpublish_firmware_status_enum_to_string`, lib/ocpp/v2/ocpp_enums.cpp l.5098-5109; `string_to_unpublish_firmware_status_enum`, l.5111-5123. -/
def e_v2_UnpublishFirmwareStatusEnum : EnumTable :=
  { name := "v2.UnpublishFirmwareStatusEnum",
    decl := ["DownloadOngoing", "NoFirmware", "Unpublished"],
    toS := [("DownloadOngoing", "DownloadOngoing"), ("NoFirmware", "NoFirmware"), ("Unpublished", "Unpublished")],
    fromS := [("DownloadOngoing", "DownloadOngoing"), ("NoFirmware", "NoFirmware"), ("Unpublished", "Unpublished")] }

/-- `UpdateFirmwareStatusEnum`, include/ocpp/v2/ocpp_enums.hpp l.2648; `update_firmware_status_enum_to_string`, lib/ocpp/v2/ocpp_enums.cpp l.5133-5148; `string_to_update_firmware_status_enum`, l.5150-5168. -/
def e_v2_UpdateFirmwareStatusEnum : EnumTable :=
  { name := "v2.UpdateFirmwareStatusEnum",
    decl := ["Accepted", "Rejected", "AcceptedCanceled", "InvalidCertificate", "RevokedCertificate"],
    toS := [("Accepted", "Accepted"), ("Rejected", "Rejected"), ("AcceptedCanceled", "AcceptedCanceled"), ("InvalidCertificate",
      "InvalidCertificate"), ("RevokedCertificate", "RevokedCertificate")],
    fromS := [("Accepted", "Accepted"), ("Rejected", "Rejected"), ("AcceptedCanceled", "AcceptedCanceled"), ("InvalidCertificate",
      "InvalidCertificate"), ("RevokedCertificate", "RevokedCertificate")] }

/-- `PriorityChargingStatusEnum`, include/ocpp/v2/ocpp_enums.hpp l.2672; `priority_charging_status_enum_to_string`, lib/ocpp/v2/ocpp_enums.cpp l.5178-5189; `string_to_priority_charging_status_enum`, l.5191-5203. -/
def e_v2_PriorityChargingStatusEnum : EnumTable :=
  { name := "v2.PriorityChargingStatusEnum",
    decl := ["Accepted", "Rejected", "NoProfile"],
    toS := [("Accepted", "Accepted"), ("Rejected", "Rejected"), ("NoProfile", "NoProfile")],
    fromS := [("Accepted", "Accepted"), ("Rejected", "Rejected"), ("NoProfile", "NoProfile")] }

/-- `AuthorizationStatus`, include/ocpp/v16/ocpp_enums.hpp l.15; `authorization_status_to_string`, lib/ocpp/v16/ocpp_enums.cpp l.16-31; `string_to_authorization_status`, l.33-51. -/
def e_v16_AuthorizationStatus : EnumTable :=
  { name := "v16.AuthorizationStatus",
    decl := ["Accepted", "Blocked", "Expired", "Invalid", "ConcurrentTx"],
    toS := [("Accepted", "Accepted"), ("Blocked", "Blocked"), ("Expired", "Expired"), ("Invalid", "Invalid"), ("ConcurrentTx", "ConcurrentTx")],
    fromS := [("Accepted", "Accepted"), ("Blocked", "Blocked"), ("Expired", "Expired"), ("Invalid", "Invalid"), ("ConcurrentTx", "ConcurrentTx")] }

/-- `RegistrationStatus`, include/ocpp/v16/ocpp_enums.hpp l.39; `registration_status_to_string`, lib/ocpp/v16/ocpp_enums.cpp l.61-72; `string_to_registration_status`, l.74-86. -/
def e_v16_RegistrationStatus : EnumTable :=
  { name := "v16.RegistrationStatus",
    decl := ["Accepted", "Pending", "Rejected"],
    toS := [("Accepted", "Accepted"), ("Pending", "Pending"), ("Rejected", "Rejected")],
    fromS := [("Accepted", "Accepted"), ("Pending", "Pending"), ("Rejected", "Rejected")] }

/-- `CancelReservationStatus`, include/ocpp/v16/ocpp_enums.hpp l.61; `cancel_reservation_status_to_string`, lib/ocpp/v16/ocpp_enums.cpp l.96-105; `string_to_cancel_reservation_status`, l.107-116. -/
def e_v16_CancelReservationStatus : EnumTable :=
  { name := "v16.CancelReservationStatus",
    decl := ["Accepted", "Rejected"],
    toS := [("Accepted", "Accepted"), ("Rejected", "Rejected")],
    fromS := [("Accepted", "Accepted"), ("Rejected", "Rejected")] }

/-- `CertificateSignedStatusEnumType`, include/ocpp/v16/ocpp_enums.hpp l.82; `certificate_signed_status_enum_type_to_string`, lib/ocpp/v16/ocpp_enums.cpp l.126-135; `string_to_certificate_signed_status_enum_type`, l.137-146. -/
def e_v16_CertificateSignedStatusEnumType : EnumTable :=
  { name := "v16.CertificateSignedStatusEnumType",
    decl := ["Accepted", "Rejected"],
    toS := [("Accepted", "Accepted"), ("Rejected", "Rejected")],
    fromS := [("Accepted", "Accepted"), ("Rejected", "Rejected")] }

/-- `AvailabilityType`, include/ocpp/v16/ocpp_enums.hpp l.103; `availability_type_to_string`, lib/ocpp/v16/ocpp_enums.cpp l.156-165; `string_to_availability_type`, l.167-176. -/
def e_v16_AvailabilityType : EnumTable :=
  { name := "v16.AvailabilityType",
    decl := ["Inoperative", "Operative"],
    toS := [("Inoperative", "Inoperative"), ("Operative", "Operative")],
    fromS := [("Inoperative", "Inoperative"), ("Operative", "Operative")] }

/-- `AvailabilityStatus`, include/ocpp/v16/ocpp_enums.hpp l.124; `availability_status_to_string`, lib/ocpp/v16/ocpp_enums.cpp l.186-197; `string_to_availability_status`, l.199-211. -/
def e_v16_AvailabilityStatus : EnumTable :=
  { name := "v16.AvailabilityStatus",
    decl := ["Accepted", "Rejected", "Scheduled"],
    toS := [("Accepted", "Accepted"), ("Rejected", "Rejected"), ("Scheduled", "Scheduled")],
    fromS := [("Accepted", "Accepted"), ("Rejected", "Rejected"), ("Scheduled", "Scheduled")] }

/-- `ConfigurationStatus`, include/ocpp/v16/ocpp_enums.hpp l.146; `configuration_status_to_string`, lib/ocpp/v16/ocpp_enums.cpp l.221-234; `string_to_configuration_status`, l.236-251. -/
def e_v16_ConfigurationStatus : EnumTable :=
  { name := "v16.ConfigurationStatus",
    decl := ["Accepted", "Rejected", "RebootRequired", "NotSupported"],
    toS := [("Accepted", "Accepted"), ("Rejected", "Rejected"), ("RebootRequired", "RebootRequired"), ("NotSupported", "NotSupported")],
    fromS := [("Accepted", "Accepted"), ("Rejected", "Rejected"), ("RebootRequired", "RebootRequired"), ("NotSupported", "NotSupported")] }

/-- `ClearCacheStatus`, include/ocpp/v16/ocpp_enums.hpp l.169; `clear_cache_status_to_string`, lib/ocpp/v16/ocpp_enums.cpp l.261-270; `string_to_clear_cache_status`, l.272-281. -/
def e_v16_ClearCacheStatus : EnumTable :=
  { name := "v16.ClearCacheStatus",
    decl := ["Accepted", "Rejected"],
    toS := [("Accepted", "Accepted"), ("Rejected", "Rejected")],
    fromS := [("Accepted", "Accepted"), ("Rejected", "Rejected")] }

/-- `ChargingProfilePurposeType`, include/ocpp/v16/ocpp_enums.hpp l.190; `charging_profile_purpose_type_to_string`, lib/ocpp/v16/ocpp_enums.cpp l.291-302; `string_to_charging_profile_purpose_type`, l.304-316. -/
def e_v16_ChargingProfilePurposeType : EnumTable :=
  { name := "v16.ChargingProfilePurposeType",
    decl := ["ChargePointMaxProfile", "TxDefaultProfile", "TxProfile"],
    toS := [("ChargePointMaxProfile", "ChargePointMaxProfile"), ("TxDefaultProfile", "TxDefaultProfile"), ("TxProfile", "TxProfile")],
    fromS := [("ChargePointMaxProfile", "ChargePointMaxProfile"), ("TxDefaultProfile", "TxDefaultProfile"), ("TxProfile", "TxProfile")] }

/-- `ClearChargingProfileStatus`, include/ocpp/v16/ocpp_enums.hpp l.212; `clear_charging_profile_status_to_string`, lib/ocpp/v16/ocpp_enums.cpp l.326-335; `string_to_clear_charging_profile_status`, l.337-346. -/
def e_v16_ClearChargingProfileStatus : EnumTable :=
  { name := "v16.ClearChargingProfileStatus",
    decl := ["Accepted", "Unknown"],
    toS := [("Accepted", "Accepted"), ("Unknown", "Unknown")],
    fromS := [("Accepted", "Accepted"), ("Unknown", "Unknown")] }

/-- `DataTransferStatus`, include/ocpp/v16/ocpp_enums.hpp l.233; `data_transfer_status_to_string`, lib/ocpp/v16/ocpp_enums.cpp l.356-369; `string_to_data_transfer_status`, l.371-386. -/
def e_v16_DataTransferStatus : EnumTable :=
  { name := "v16.DataTransferStatus",
    decl := ["Accepted", "Rejected", "UnknownMessageId", "UnknownVendorId"],
    toS := [("Accepted", "Accepted"), ("Rejected", "Rejected"), ("UnknownMessageId", "UnknownMessageId"), ("UnknownVendorId", "UnknownVendorId")],
    fromS := [("Accepted", "Accepted"), ("Rejected", "Rejected"), ("UnknownMessageId", "UnknownMessageId"), ("UnknownVendorId", "UnknownVendorId")] }

/-- `HashAlgorithmEnumType`, include/ocpp/v16/ocpp_enums.hpp l.256; `hash_algorithm_enum_type_to_string`, lib/ocpp/v16/ocpp_enums.cpp l.396-407; `string_to_hash_algorithm_enum_type`, l.409-421. -/
def e_v16_HashAlgorithmEnumType : EnumTable :=
  { name := "v16.HashAlgorithmEnumType",
    decl := ["SHA256", "SHA384", "SHA512"],
    toS := [("SHA256", "SHA256"), ("SHA384", "SHA384"), ("SHA512", "SHA512")],
    fromS := [("SHA256", "SHA256"), ("SHA384", "SHA384"), ("SHA512", "SHA512")] }

/-- `DeleteCertificateStatusEnumType`, include/ocpp/v16/ocpp_enums.hpp l.278; `delete_certificate_status_enum_type_to_string`, lib/ocpp/v16/ocpp_enums.cpp l.431-442; `string_to_delete_certificate_status_enum_type`, l.444-456. -/
def e_v16_DeleteCertificateStatusEnumType : EnumTable :=
  { name := "v16.DeleteCertificateStatusEnumType",
    decl := ["Accepted", "Failed", "NotFound"],
    toS := [("Accepted", "Accepted"), ("Failed", "Failed"), ("NotFound", "NotFound")],
    fromS := [("Accepted", "Accepted"), ("Failed", "Failed"), ("NotFound", "NotFound")] }

/-- `DiagnosticsStatus`, include/ocpp/v16/ocpp_enums.hpp l.300; `diagnostics_status_to_string`, lib/ocpp/v16/ocpp_enums.cpp l.466-479; `string_to_diagnostics_status`, l.481-496. -/
def e_v16_DiagnosticsStatus : EnumTable :=
  { name := "v16.DiagnosticsStatus",
    decl := ["Idle", "Uploaded", "UploadFailed", "Uploading"],
    toS := [("Idle", "Idle"), ("Uploaded", "Uploaded"), ("UploadFailed", "UploadFailed"), ("Uploading", "Uploading")],
    fromS := [("Idle", "Idle"), ("Uploaded", "Uploaded"), ("UploadFailed", "UploadFailed"), ("Uploading", "Uploading")] }

/-- `MessageTriggerEnumType`, include/ocpp/v16/ocpp_enums.hpp l.323; `message_trigger_enum_type_to_string`, lib/ocpp/v16/ocpp_enums.cpp l.506-525; `string_to_message_trigger_enum_type`, l.527-551. -/
def e_v16_MessageTriggerEnumType : EnumTable :=
  { name := "v16.MessageTriggerEnumType",
    decl := ["BootNotification", "LogStatusNotification", "FirmwareStatusNotification", "Heartbeat", "MeterValues", "SignChargePointCertificate",
      "StatusNotification"],
    toS := [("BootNotification", "BootNotification"), ("LogStatusNotification", "LogStatusNotification"), ("FirmwareStatusNotification",
      "FirmwareStatusNotification"), ("Heartbeat", "Heartbeat"), ("MeterValues", "MeterValues"), ("SignChargePointCertificate",
      "SignChargePointCertificate"), ("StatusNotification", "StatusNotification")],
    fromS := [("BootNotification", "BootNotification"), ("LogStatusNotification", "LogStatusNotification"), ("FirmwareStatusNotification",
      "FirmwareStatusNotification"), ("Heartbeat", "Heartbeat"), ("MeterValues", "MeterValues"), ("SignChargePointCertificate",
      "SignChargePointCertificate"), ("StatusNotification", "StatusNotification")] }

/-- `TriggerMessageStatusEnumType`, include/ocpp/v16/ocpp_enums.hpp l.349; `trigger_message_status_enum_type_to_string`, lib/ocpp/v16/ocpp_enums.cpp l.561-572; `string_to_trigger_message_status_enum_type`, l.574-586. -/
def e_v16_TriggerMessageStatusEnumType : EnumTable :=
  { name := "v16.TriggerMessageStatusEnumType",
    decl := ["Accepted", "Rejected", "NotImplemented"],
    toS := [("Accepted", "Accepted"), ("Rejected", "Rejected"), ("NotImplemented", "NotImplemented")],
    fromS := [("Accepted", "Accepted"), ("Rejected", "Rejected"), ("NotImplemented", "NotImplemented")] }

/-- `FirmwareStatus`, include/ocpp/v16/ocpp_enums.hpp l.371; `firmware_status_to_string`, lib/ocpp/v16/ocpp_enums.cpp l.596-615; `string_to_firmware_status`, l.617-641. -/
def e_v16_FirmwareStatus : EnumTable :=
  { name := "v16.FirmwareStatus",
    decl := ["Downloaded", "DownloadFailed", "Downloading", "Idle", "InstallationFailed", "Installing", "Installed"],
    toS := [("Downloaded", "Downloaded"), ("DownloadFailed", "DownloadFailed"), ("Downloading", "Downloading"), ("Idle", "Idle"),
      ("InstallationFailed", "InstallationFailed"), ("Installing", "Installing"), ("Installed", "Installed")],
    fromS := [("Downloaded", "Downloaded"), ("DownloadFailed", "DownloadFailed"), ("Downloading", "Downloading"), ("Idle", "Idle"),
      ("InstallationFailed", "InstallationFailed"), ("Installing", "Installing"), ("Installed", "Installed")] }

/-- `ChargingRateUnit`, include/ocpp/v16/ocpp_enums.hpp l.397; `charging_rate_unit_to_string`, lib/ocpp/v16/ocpp_enums.cpp l.651-660; `string_to_charging_rate_unit`, l.662-671. -/
def e_v16_ChargingRateUnit : EnumTable :=
  { name := "v16.ChargingRateUnit",
    decl := ["A", "W"],
    toS := [("A", "A"), ("W", "W")],
    fromS := [("A", "A"), ("W", "W")] }

/-- `GetCompositeScheduleStatus`, include/ocpp/v16/ocpp_enums.hpp l.418; `get_composite_schedule_status_to_string`, lib/ocpp/v16/ocpp_enums.cpp l.681-690; `string_to_get_composite_schedule_status`, l.692-701. -/
def e_v16_GetCompositeScheduleStatus : EnumTable :=
  { name := "v16.GetCompositeScheduleStatus",
    decl := ["Accepted", "Rejected"],
    toS := [("Accepted", "Accepted"), ("Rejected", "Rejected")],
    fromS := [("Accepted", "Accepted"), ("Rejected", "Rejected")] }

/-- `CertificateUseEnumType`, include/ocpp/v16/ocpp_enums.hpp l.439; `certificate_use_enum_type_to_string`, lib/ocpp/v16/ocpp_enums.cpp l.711-720; `string_to_certificate_use_enum_type`, l.722-731. -/
def e_v16_CertificateUseEnumType : EnumTable :=
  { name := "v16.CertificateUseEnumType",
    decl := ["CentralSystemRootCertificate", "ManufacturerRootCertificate"],
    toS := [("CentralSystemRootCertificate", "CentralSystemRootCertificate"), ("ManufacturerRootCertificate", "ManufacturerRootCertificate")],
    fromS := [("CentralSystemRootCertificate", "CentralSystemRootCertificate"), ("ManufacturerRootCertificate", "ManufacturerRootCertificate")] }

/-- `GetInstalledCertificateStatusEnumType`, include/ocpp/v16/ocpp_enums.hpp l.460; `get_installed_certificate_status_enum_type_to_string`, lib/ocpp/v16/ocpp_enums.cpp l.741-750; `string_to_get_installed_certificate_status_enum_type`, l.752-761. -/
def e_v16_GetInstalledCertificateStatusEnumType : EnumTable :=
  { name := "v16.GetInstalledCertificateStatusEnumType",
    decl := ["Accepted", "NotFound"],
    toS := [("Accepted", "Accepted"), ("NotFound", "NotFound")],
    fromS := [("Accepted", "Accepted"), ("NotFound", "NotFound")] }

/-- `LogEnumType`, include/ocpp/v16/ocpp_enums.hpp l.482; `log_enum_type_to_string`, lib/ocpp/v16/ocpp_enums.cpp l.772-781; `string_to_log_enum_type`, l.783-792. -/
def e_v16_LogEnumType : EnumTable :=
  { name := "v16.LogEnumType",
    decl := ["DiagnosticsLog", "SecurityLog"],
    toS := [("DiagnosticsLog", "DiagnosticsLog"), ("SecurityLog", "SecurityLog")],
    fromS := [("DiagnosticsLog", "DiagnosticsLog"), ("SecurityLog", "SecurityLog")] }

/-- `LogStatusEnumType`, include/ocpp/v16/ocpp_enums.hpp l.502; `log_status_enum_type_to_string`, lib/ocpp/v16/ocpp_enums.cpp l.802-813; `string_to_log_status_enum_type`, l.815-827. -/
def e_v16_LogStatusEnumType : EnumTable :=
  { name := "v16.LogStatusEnumType",
    decl := ["Accepted", "Rejected", "AcceptedCanceled"],
    toS := [("Accepted", "Accepted"), ("Rejected", "Rejected"), ("AcceptedCanceled", "AcceptedCanceled")],
    fromS := [("Accepted", "Accepted"), ("Rejected", "Rejected"), ("AcceptedCanceled", "AcceptedCanceled")] }

/-- `InstallCertificateStatusEnumType`, include/ocpp/v16/ocpp_enums.hpp l.524; `install_certificate_status_enum_type_to_string`, lib/ocpp/v16/ocpp_enums.cpp l.837-848; `string_to_install_certificate_status_enum_type`, l.850-862. -/
def e_v16_InstallCertificateStatusEnumType : EnumTable :=
  { name := "v16.InstallCertificateStatusEnumType",
    decl := ["Accepted", "Failed", "Rejected"],
    toS := [("Accepted", "Accepted"), ("Failed", "Failed"), ("Rejected", "Rejected")],
    fromS := [("Accepted", "Accepted"), ("Failed", "Failed"), ("Rejected", "Rejected")] }

/-- `UploadLogStatusEnumType`, include/ocpp/v16/ocpp_enums.hpp l.547; `upload_log_status_enum_type_to_string`, lib/ocpp/v16/ocpp_enums.cpp l.873-892; `string_to_upload_log_status_enum_type`, l.894-918. -/
def e_v16_UploadLogStatusEnumType : EnumTable :=
  { name := "v16.UploadLogStatusEnumType",
    decl := ["BadMessage", "Idle", "NotSupportedOperation", "PermissionDenied", "Uploaded", "UploadFailure", "Uploading"],
    toS := [("BadMessage", "BadMessage"), ("Idle", "Idle"), ("NotSupportedOperation", "NotSupportedOperation"), ("PermissionDenied",
      "PermissionDenied"), ("Uploaded", "Uploaded"), ("UploadFailure", "UploadFailure"), ("Uploading", "Uploading")],
    fromS := [("BadMessage", "BadMessage"), ("Idle", "Idle"), ("NotSupportedOperation", "NotSupportedOperation"), ("PermissionDenied",
      "PermissionDenied"), ("Uploaded", "Uploaded"), ("UploadFailure", "UploadFailure"), ("Uploading", "Uploading")] }

/-- `ReadingContext`, include/ocpp/v16/ocpp_enums.hpp l.573; `reading_context_to_string`, lib/ocpp/v16/ocpp_enums.cpp l.928-949; `string_to_reading_context`, l.951-978. -/
def e_v16_ReadingContext : EnumTable :=
  { name := "v16.ReadingContext",
    decl := ["Interruption_Begin", "Interruption_End", "Sample_Clock", "Sample_Periodic", "Transaction_Begin", "Transaction_End", "Trigger", "Other"],
    toS := [("Interruption_Begin", "Interruption.Begin"), ("Interruption_End", "Interruption.End"), ("Sample_Clock", "Sample.Clock"),
      ("Sample_Periodic", "Sample.Periodic"), ("Transaction_Begin", "Transaction.Begin"), ("Transaction_End", "Transaction.End"), ("Trigger",
      "Trigger"), ("Other", "Other")],
    fromS := [("Interruption.Begin", "Interruption_Begin"), ("Interruption.End", "Interruption_End"), ("Sample.Clock", "Sample_Clock"),
      ("Sample.Periodic", "Sample_Periodic"), ("Transaction.Begin", "Transaction_Begin"), ("Transaction.End", "Transaction_End"), ("Trigger",
      "Trigger"), ("Other", "Other")] }

/-- `ValueFormat`, include/ocpp/v16/ocpp_enums.hpp l.600; `value_format_to_string`, lib/ocpp/v16/ocpp_enums.cpp l.988-997; `string_to_value_format`, l.999-1008. -/
def e_v16_ValueFormat : EnumTable :=
  { name := "v16.ValueFormat",
    decl := ["Raw", "SignedData"],
    toS := [("Raw", "Raw"), ("SignedData", "SignedData")],
    fromS := [("Raw", "Raw"), ("SignedData", "SignedData")] }

/-- `Measurand`, include/ocpp/v16/ocpp_enums.hpp l.620; `measurand_to_string`, lib/ocpp/v16/ocpp_enums.cpp l.1018-1067; `string_to_measurand`, l.1069-1138. -/
def e_v16_Measurand : EnumTable :=
  { name := "v16.Measurand",
    decl := ["Energy_Active_Export_Register", "Energy_Active_Import_Register", "Energy_Reactive_Export_Register", "Energy_Reactive_Import_Register",
      "Energy_Active_Export_Interval", "Energy_Active_Import_Interval", "Energy_Reactive_Export_Interval", "Energy_Reactive_Import_Interval",
      "Power_Active_Export", "Power_Active_Import", "Power_Offered", "Power_Reactive_Export", "Power_Reactive_Import", "Power_Factor",
      "Current_Import", "Current_Export", "Current_Offered", "Voltage", "Frequency", "Temperature", "SoC", "RPM"],
    toS := [("Energy_Active_Export_Register", "Energy.Active.Export.Register"), ("Energy_Active_Import_Register", "Energy.Active.Import.Register"),
      ("Energy_Reactive_Export_Register", "Energy.Reactive.Export.Register"), ("Energy_Reactive_Import_Register", "Energy.Reactive.Import.Register"),
      ("Energy_Active_Export_Interval", "Energy.Active.Export.Interval"), ("Energy_Active_Import_Interval", "Energy.Active.Import.Interval"),
      ("Energy_Reactive_Export_Interval", "Energy.Reactive.Export.Interval"), ("Energy_Reactive_Import_Interval", "Energy.Reactive.Import.Interval"),
      ("Power_Active_Export", "Power.Active.Export"), ("Power_Active_Import", "Power.Active.Import"), ("Power_Offered", "Power.Offered"),
      ("Power_Reactive_Export", "Power.Reactive.Export"), ("Power_Reactive_Import", "Power.Reactive.Import"), ("Power_Factor", "Power.Factor"),
      ("Current_Import", "Current.Import"), ("Current_Export", "Current.Export"), ("Current_Offered", "Current.Offered"), ("Voltage", "Voltage"),
      ("Frequency", "Frequency"), ("Temperature", "Temperature"), ("SoC", "SoC"), ("RPM", "RPM")],
    fromS := [("Energy.Active.Export.Register", "Energy_Active_Export_Register"), ("Energy.Active.Import.Register", "Energy_Active_Import_Register"),
      ("Energy.Reactive.Export.Register", "Energy_Reactive_Export_Register"), ("Energy.Reactive.Import.Register", "Energy_Reactive_Import_Register"),
      ("Energy.Active.Export.Interval", "Energy_Active_Export_Interval"), ("Energy.Active.Import.Interval", "Energy_Active_Import_Interval"),
      ("Energy.Reactive.Export.Interval", "Energy_Reactive_Export_Interval"), ("Energy.Reactive.Import.Interval", "Energy_Reactive_Import_Interval"),
      ("Power.Active.Export", "Power_Active_Export"), ("Power.Active.Import", "Power_Active_Import"), ("Power.Offered", "Power_Offered"),
      ("Power.Reactive.Export", "Power_Reactive_Export"), ("Power.Reactive.Import", "Power_Reactive_Import"), ("Power.Factor", "Power_Factor"),
      ("Current.Import", "Current_Import"), ("Current.Export", "Current_Export"), ("Current.Offered", "Current_Offered"), ("Voltage", "Voltage"),
      ("Frequency", "Frequency"), ("Temperature", "Temperature"), ("SoC", "SoC"), ("RPM", "RPM")] }

/-- `Phase`, include/ocpp/v16/ocpp_enums.hpp l.660; `phase_to_string`, lib/ocpp/v16/ocpp_enums.cpp l.1148-1173; `string_to_phase`, l.1175-1208. -/
def e_v16_Phase : EnumTable :=
  { name := "v16.Phase",
    decl := ["L1", "L2", "L3", "N", "L1_N", "L2_N", "L3_N", "L1_L2", "L2_L3", "L3_L1"],
    toS := [("L1", "L1"), ("L2", "L2"), ("L3", "L3"), ("N", "N"), ("L1_N", "L1-N"), ("L2_N", "L2-N"), ("L3_N", "L3-N"), ("L1_L2", "L1-L2"), ("L2_L3",
      "L2-L3"), ("L3_L1", "L3-L1")],
    fromS := [("L1", "L1"), ("L2", "L2"), ("L3", "L3"), ("N", "N"), ("L1-N", "L1_N"), ("L2-N", "L2_N"), ("L3-N", "L3_N"), ("L1-L2", "L1_L2"),
      ("L2-L3", "L2_L3"), ("L3-L1", "L3_L1")] }

/-- `Location`, include/ocpp/v16/ocpp_enums.hpp l.688; `location_to_string`, lib/ocpp/v16/ocpp_enums.cpp l.1218-1233; `string_to_location`, l.1235-1253. -/
def e_v16_Location : EnumTable :=
  { name := "v16.Location",
    decl := ["Cable", "EV", "Inlet", "Outlet", "Body"],
    toS := [("Cable", "Cable"), ("EV", "EV"), ("Inlet", "Inlet"), ("Outlet", "Outlet"), ("Body", "Body")],
    fromS := [("Cable", "Cable"), ("EV", "EV"), ("Inlet", "Inlet"), ("Outlet", "Outlet"), ("Body", "Body")] }

/-- `UnitOfMeasure`, include/ocpp/v16/ocpp_enums.hpp l.711; `unit_of_measure_to_string`, lib/ocpp/v16/ocpp_enums.cpp l.1263-1302; `string_to_unit_of_measure`, l.1304-1358. -/
def e_v16_UnitOfMeasure : EnumTable :=
  { name := "v16.UnitOfMeasure",
    decl := ["Wh", "kWh", "varh", "kvarh", "W", "kW", "VA", "kVA", "var", "kvar", "A", "V", "K", "Celcius", "Celsius", "Fahrenheit", "Percent"],
    toS := [("Wh", "Wh"), ("kWh", "kWh"), ("varh", "varh"), ("kvarh", "kvarh"), ("W", "W"), ("kW", "kW"), ("VA", "VA"), ("kVA", "kVA"), ("var",
      "var"), ("kvar", "kvar"), ("A", "A"), ("V", "V"), ("K", "K"), ("Celcius", "Celcius"), ("Celsius", "Celsius"), ("Fahrenheit", "Fahrenheit"),
      ("Percent", "Percent")],
    fromS := [("Wh", "Wh"), ("kWh", "kWh"), ("varh", "varh"), ("kvarh", "kvarh"), ("W", "W"), ("kW", "kW"), ("VA", "VA"), ("kVA", "kVA"), ("var",
      "var"), ("kvar", "kvar"), ("A", "A"), ("V", "V"), ("K", "K"), ("Celcius", "Celcius"), ("Celsius", "Celsius"), ("Fahrenheit", "Fahrenheit"),
      ("Percent", "Percent")] }

/-- `ChargingProfileKindType`, include/ocpp/v16/ocpp_enums.hpp l.747; `charging_profile_kind_type_to_string`, lib/ocpp/v16/ocpp_enums.cpp l.1368-1379; `string_to_charging_profile_kind_type`, l.1381-1393. -/
def e_v16_ChargingProfileKindType : EnumTable :=
  { name := "v16.ChargingProfileKindType",
    decl := ["Absolute", "Recurring", "Relative"],
    toS := [("Absolute", "Absolute"), ("Recurring", "Recurring"), ("Relative", "Relative")],
    fromS := [("Absolute", "Absolute"), ("Recurring", "Recurring"), ("Relative", "Relative")] }

/-- `RecurrencyKindType`, include/ocpp/v16/ocpp_enums.hpp l.769; `recurrency_kind_type_to_string`, lib/ocpp/v16/ocpp_enums.cpp l.1403-1412; `string_to_recurrency_kind_type`, l.1414-1423. -/
def e_v16_RecurrencyKindType : EnumTable :=
  { name := "v16.RecurrencyKindType",
    decl := ["Daily", "Weekly"],
    toS := [("Daily", "Daily"), ("Weekly", "Weekly")],
    fromS := [("Daily", "Daily"), ("Weekly", "Weekly")] }

/-- `RemoteStartStopStatus`, include/ocpp/v16/ocpp_enums.hpp l.790; `remote_start_stop_status_to_string`, lib/ocpp/v16/ocpp_enums.cpp l.1433-1442; `string_to_remote_start_stop_status`, l.1444-1453. -/
def e_v16_RemoteStartStopStatus : EnumTable :=
  { name := "v16.RemoteStartStopStatus",
    decl := ["Accepted", "Rejected"],
    toS := [("Accepted", "Accepted"), ("Rejected", "Rejected")],
    fromS := [("Accepted", "Accepted"), ("Rejected", "Rejected")] }

/-- `ReservationStatus`, include/ocpp/v16/ocpp_enums.hpp l.811; `reservation_status_to_string`, lib/ocpp/v16/ocpp_enums.cpp l.1463-1478; `string_to_reservation_status`, l.1480-1498. -/
def e_v16_ReservationStatus : EnumTable :=
  { name := "v16.ReservationStatus",
    decl := ["Accepted", "Faulted", "Occupied", "Rejected", "Unavailable"],
    toS := [("Accepted", "Accepted"), ("Faulted", "Faulted"), ("Occupied", "Occupied"), ("Rejected", "Rejected"), ("Unavailable", "Unavailable")],
    fromS := [("Accepted", "Accepted"), ("Faulted", "Faulted"), ("Occupied", "Occupied"), ("Rejected", "Rejected"), ("Unavailable", "Unavailable")] }

/-- `ResetType`, include/ocpp/v16/ocpp_enums.hpp l.835; `reset_type_to_string`, lib/ocpp/v16/ocpp_enums.cpp l.1508-1517; `string_to_reset_type`, l.1519-1528. -/
def e_v16_ResetType : EnumTable :=
  { name := "v16.ResetType",
    decl := ["Hard", "Soft"],
    toS := [("Hard", "Hard"), ("Soft", "Soft")],
    fromS := [("Hard", "Hard"), ("Soft", "Soft")] }

/-- `ResetStatus`, include/ocpp/v16/ocpp_enums.hpp l.855; `reset_status_to_string`, lib/ocpp/v16/ocpp_enums.cpp l.1538-1547; `string_to_reset_status`, l.1549-1558. -/
def e_v16_ResetStatus : EnumTable :=
  { name := "v16.ResetStatus",
    decl := ["Accepted", "Rejected"],
    toS := [("Accepted", "Accepted"), ("Rejected", "Rejected")],
    fromS := [("Accepted", "Accepted"), ("Rejected", "Rejected")] }

/-- `UpdateType`, include/ocpp/v16/ocpp_enums.hpp l.875; `update_type_to_string`, lib/ocpp/v16/ocpp_enums.cpp l.1568-1577; `string_to_update_type`, l.1579-1588. -/
def e_v16_UpdateType : EnumTable :=
  { name := "v16.UpdateType",
    decl := ["Differential", "Full"],
    toS := [("Differential", "Differential"), ("Full", "Full")],
    fromS := [("Differential", "Differential"), ("Full", "Full")] }

/-- `UpdateStatus`, include/ocpp/v16/ocpp_enums.hpp l.895; `update_status_to_string`, lib/ocpp/v16/ocpp_enums.cpp l.1598-1611; `string_to_update_status`, l.1613-1628. -/
def e_v16_UpdateStatus : EnumTable :=
  { name := "v16.UpdateStatus",
    decl := ["Accepted", "Failed", "NotSupported", "VersionMismatch"],
    toS := [("Accepted", "Accepted"), ("Failed", "Failed"), ("NotSupported", "NotSupported"), ("VersionMismatch", "VersionMismatch")],
    fromS := [("Accepted", "Accepted"), ("Failed", "Failed"), ("NotSupported", "NotSupported"), ("VersionMismatch", "VersionMismatch")] }

/-- `ChargingProfileStatus`, include/ocpp/v16/ocpp_enums.hpp l.917; `charging_profile_status_to_string`, lib/ocpp/v16/ocpp_enums.cpp l.1638-1649; `string_to_charging_profile_status`, l.1651-1663. -/
def e_v16_ChargingProfileStatus : EnumTable :=
  { name := "v16.ChargingProfileStatus",
    decl := ["Accepted", "Rejected", "NotSupported"],
    toS := [("Accepted", "Accepted"), ("Rejected", "Rejected"), ("NotSupported", "NotSupported")],
    fromS := [("Accepted", "Accepted"), ("Rejected", "Rejected"), ("NotSupported", "NotSupported")] }

/-- `GenericStatusEnumType`, include/ocpp/v16/ocpp_enums.hpp l.939; `generic_status_enum_type_to_string`, lib/ocpp/v16/ocpp_enums.cpp l.1673-1682; `string_to_generic_status_enum_type`, l.1684-1693. -/
def e_v16_GenericStatusEnumType : EnumTable :=
  { name := "v16.GenericStatusEnumType",
    decl := ["Accepted", "Rejected"],
    toS := [("Accepted", "Accepted"), ("Rejected", "Rejected")],
    fromS := [("Accepted", "Accepted"), ("Rejected", "Rejected")] }

/-- `FirmwareStatusEnumType`, include/ocpp/v16/ocpp_enums.hpp l.960; `firmware_status_enum_type_to_string`, lib/ocpp/v16/ocpp_enums.cpp l.1703-1736; `string_to_firmware_status_enum_type`, l.1738-1783. -/
def e_v16_FirmwareStatusEnumType : EnumTable :=
  { name := "v16.FirmwareStatusEnumType",
    decl := ["Downloaded", "DownloadFailed", "Downloading", "DownloadScheduled", "DownloadPaused", "Idle", "InstallationFailed", "Installing",
      "Installed", "InstallRebooting", "InstallScheduled", "InstallVerificationFailed", "InvalidSignature", "SignatureVerified"],
    toS := [("Downloaded", "Downloaded"), ("DownloadFailed", "DownloadFailed"), ("Downloading", "Downloading"), ("DownloadScheduled",
      "DownloadScheduled"), ("DownloadPaused", "DownloadPaused"), ("Idle", "Idle"), ("InstallationFailed", "InstallationFailed"), ("Installing",
      "Installing"), ("Installed", "Installed"), ("InstallRebooting", "InstallRebooting"), ("InstallScheduled", "InstallScheduled"),
      ("InstallVerificationFailed", "InstallVerificationFailed"), ("InvalidSignature", "InvalidSignature"), ("SignatureVerified",
      "SignatureVerified")],
    fromS := [("Downloaded", "Downloaded"), ("DownloadFailed", "DownloadFailed"), ("Downloading", "Downloading"), ("DownloadScheduled",
      "DownloadScheduled"), ("DownloadPaused", "DownloadPaused"), ("Idle", "Idle"), ("InstallationFailed", "InstallationFailed"), ("Installing",
      "Installing"), ("Installed", "Installed"), ("InstallRebooting", "InstallRebooting"), ("InstallScheduled", "InstallScheduled"),
      ("InstallVerificationFailed", "InstallVerificationFailed"), ("InvalidSignature", "InvalidSignature"), ("SignatureVerified",
      "SignatureVerified")] }

/-- `UpdateFirmwareStatusEnumType`, include/ocpp/v16/ocpp_enums.hpp l.993; `update_firmware_status_enum_type_to_string`, lib/ocpp/v16/ocpp_enums.cpp l.1793-1808; `string_to_update_firmware_status_enum_type`, l.1810-1828. -/
def e_v16_UpdateFirmwareStatusEnumType : EnumTable :=
  { name := "v16.UpdateFirmwareStatusEnumType",
    decl := ["Accepted", "Rejected", "AcceptedCanceled", "InvalidCertificate", "RevokedCertificate"],
    toS := [("Accepted", "Accepted"), ("Rejected", "Rejected"), ("AcceptedCanceled", "AcceptedCanceled"), ("InvalidCertificate",
      "InvalidCertificate"), ("RevokedCertificate", "RevokedCertificate")],
    fromS := [("Accepted", "Accepted"), ("Rejected", "Rejected"), ("AcceptedCanceled", "AcceptedCanceled"), ("InvalidCertificate",
      "InvalidCertificate"), ("RevokedCertificate", "RevokedCertificate")] }

/-- `ChargePointErrorCode`, include/ocpp/v16/ocpp_enums.hpp l.1017; `charge_point_error_code_to_string`, lib/ocpp/v16/ocpp_enums.cpp l.1838-1875; `string_to_charge_point_error_code`, l.1877-1928. -/
def e_v16_ChargePointErrorCode : EnumTable :=
  { name := "v16.ChargePointErrorCode",
    decl := ["ConnectorLockFailure", "EVCommunicationError", "GroundFailure", "HighTemperature", "InternalError", "LocalListConflict", "NoError",
      "OtherError", "OverCurrentFailure", "PowerMeterFailure", "PowerSwitchFailure", "ReaderFailure", "ResetFailure", "UnderVoltage", "OverVoltage",
      "WeakSignal"],
    toS := [("ConnectorLockFailure", "ConnectorLockFailure"), ("EVCommunicationError", "EVCommunicationError"), ("GroundFailure", "GroundFailure"),
      ("HighTemperature", "HighTemperature"), ("InternalError", "InternalError"), ("LocalListConflict", "LocalListConflict"), ("NoError", "NoError"),
      ("OtherError", "OtherError"), ("OverCurrentFailure", "OverCurrentFailure"), ("PowerMeterFailure", "PowerMeterFailure"), ("PowerSwitchFailure",
      "PowerSwitchFailure"), ("ReaderFailure", "ReaderFailure"), ("ResetFailure", "ResetFailure"), ("UnderVoltage", "UnderVoltage"), ("OverVoltage",
      "OverVoltage"), ("WeakSignal", "WeakSignal")],
    fromS := [("ConnectorLockFailure", "ConnectorLockFailure"), ("EVCommunicationError", "EVCommunicationError"), ("GroundFailure", "GroundFailure"),
      ("HighTemperature", "HighTemperature"), ("InternalError", "InternalError"), ("LocalListConflict", "LocalListConflict"), ("NoError", "NoError"),
      ("OtherError", "OtherError"), ("OverCurrentFailure", "OverCurrentFailure"), ("PowerMeterFailure", "PowerMeterFailure"), ("PowerSwitchFailure",
      "PowerSwitchFailure"), ("ReaderFailure", "ReaderFailure"), ("ResetFailure", "ResetFailure"), ("UnderVoltage", "UnderVoltage"), ("OverVoltage",
      "OverVoltage"), ("WeakSignal", "WeakSignal")] }

/-- `ChargePointStatus`, include/ocpp/v16/ocpp_enums.hpp l.1052; `charge_point_status_to_string`, lib/ocpp/v16/ocpp_enums.cpp l.1938-1961; `string_to_charge_point_status`, l.1963-1993. -/
def e_v16_ChargePointStatus : EnumTable :=
  { name := "v16.ChargePointStatus",
    decl := ["Available", "Preparing", "Charging", "SuspendedEVSE", "SuspendedEV", "Finishing", "Reserved", "Unavailable", "Faulted"],
    toS := [("Available", "Available"), ("Preparing", "Preparing"), ("Charging", "Charging"), ("SuspendedEVSE", "SuspendedEVSE"), ("SuspendedEV",
      "SuspendedEV"), ("Finishing", "Finishing"), ("Reserved", "Reserved"), ("Unavailable", "Unavailable"), ("Faulted", "Faulted")],
    fromS := [("Available", "Available"), ("Preparing", "Preparing"), ("Charging", "Charging"), ("SuspendedEVSE", "SuspendedEVSE"), ("SuspendedEV",
      "SuspendedEV"), ("Finishing", "Finishing"), ("Reserved", "Reserved"), ("Unavailable", "Unavailable"), ("Faulted", "Faulted")] }

/-- `Reason`, include/ocpp/v16/ocpp_enums.hpp l.1080; `reason_to_string`, lib/ocpp/v16/ocpp_enums.cpp l.2003-2030; `string_to_reason`, l.2032-2068. -/
def e_v16_Reason : EnumTable :=
  { name := "v16.Reason",
    decl := ["EmergencyStop", "EVDisconnected", "HardReset", "Local", "Other", "PowerLoss", "Reboot", "Remote", "SoftReset", "UnlockCommand",
      "DeAuthorized"],
    toS := [("EmergencyStop", "EmergencyStop"), ("EVDisconnected", "EVDisconnected"), ("HardReset", "HardReset"), ("Local", "Local"), ("Other",
      "Other"), ("PowerLoss", "PowerLoss"), ("Reboot", "Reboot"), ("Remote", "Remote"), ("SoftReset", "SoftReset"), ("UnlockCommand",
      "UnlockCommand"), ("DeAuthorized", "DeAuthorized")],
    fromS := [("EmergencyStop", "EmergencyStop"), ("EVDisconnected", "EVDisconnected"), ("HardReset", "HardReset"), ("Local", "Local"), ("Other",
      "Other"), ("PowerLoss", "PowerLoss"), ("Reboot", "Reboot"), ("Remote", "Remote"), ("SoftReset", "SoftReset"), ("UnlockCommand",
      "UnlockCommand"), ("DeAuthorized", "DeAuthorized")] }

/-- `MessageTrigger`, include/ocpp/v16/ocpp_enums.hpp l.1109; `message_trigger_to_string`, lib/ocpp/v16/ocpp_enums.cpp l.2078-2095; `string_to_message_trigger`, l.2097-2118. -/
def e_v16_MessageTrigger : EnumTable :=
  { name := "v16.MessageTrigger",
    decl := ["BootNotification", "DiagnosticsStatusNotification", "FirmwareStatusNotification", "Heartbeat", "MeterValues", "StatusNotification"],
    toS := [("BootNotification", "BootNotification"), ("DiagnosticsStatusNotification", "DiagnosticsStatusNotification"),
      ("FirmwareStatusNotification", "FirmwareStatusNotification"), ("Heartbeat", "Heartbeat"), ("MeterValues", "MeterValues"), ("StatusNotification",
      "StatusNotification")],
    fromS := [("BootNotification", "BootNotification"), ("DiagnosticsStatusNotification", "DiagnosticsStatusNotification"),
      ("FirmwareStatusNotification", "FirmwareStatusNotification"), ("Heartbeat", "Heartbeat"), ("MeterValues", "MeterValues"), ("StatusNotification",
      "StatusNotification")] }

/-- `TriggerMessageStatus`, include/ocpp/v16/ocpp_enums.hpp l.1134; `trigger_message_status_to_string`, lib/ocpp/v16/ocpp_enums.cpp l.2128-2139; `string_to_trigger_message_status`, l.2141-2153. -/
def e_v16_TriggerMessageStatus : EnumTable :=
  { name := "v16.TriggerMessageStatus",
    decl := ["Accepted", "Rejected", "NotImplemented"],
    toS := [("Accepted", "Accepted"), ("Rejected", "Rejected"), ("NotImplemented", "NotImplemented")],
    fromS := [("Accepted", "Accepted"), ("Rejected", "Rejected"), ("NotImplemented", "NotImplemented")] }

/-- `UnlockStatus`, include/ocpp/v16/ocpp_enums.hpp l.1156; `unlock_status_to_string`, lib/ocpp/v16/ocpp_enums.cpp l.2163-2174; `string_to_unlock_status`, l.2176-2188. -/
def e_v16_UnlockStatus : EnumTable :=
  { name := "v16.UnlockStatus",
    decl := ["Unlocked", "UnlockFailed", "NotSupported"],
    toS := [("Unlocked", "Unlocked"), ("UnlockFailed", "UnlockFailed"), ("NotSupported", "NotSupported")],
    fromS := [("Unlocked", "Unlocked"), ("UnlockFailed", "UnlockFailed"), ("NotSupported", "NotSupported")] }

/-- `SessionStartedReason`, include/ocpp/common/types.hpp l.156; `session_started_reason_to_string`, lib/ocpp/common/types.cpp l.115-123; `string_to_session_started_reason`, l.125-133. -/
def e_common_SessionStartedReason : EnumTable :=
  { name := "common.SessionStartedReason",
    decl := ["EVConnected", "Authorized"],
    toS := [("Authorized", "Authorized"), ("EVConnected", "EVConnected")],
    fromS := [("Authorized", "Authorized"), ("EVConnected", "EVConnected")] }

/-- `RunningCostState`, include/ocpp/common/types.hpp l.411; `running_cost_state_to_string`, lib/ocpp/common/types.cpp l.639-649; `string_to_running_cost_state`, l.625-637. -/
def e_common_RunningCostState : EnumTable :=
  { name := "common.RunningCostState",
    decl := ["Charging", "Idle", "Finished"],
    toS := [("Charging", "Charging"), ("Idle", "Idle"), ("Finished", "Finished")],
    fromS := [("Charging", "Charging"), ("Idle", "Idle"), ("Finished", "Finished")] }

/-- `CaCertificateType`, include/ocpp/common/types.hpp l.449; `ca_certificate_type_to_string`, lib/ocpp/common/types.cpp l.766-781; `string_to_ca_certificate_type`, l.783-800. -/
def e_common_CaCertificateType : EnumTable :=
  { name := "common.CaCertificateType",
    decl := ["V2G", "MO", "CSMS", "MF", "OEM"],
    toS := [("V2G", "V2G"), ("MO", "MO"), ("CSMS", "CSMS"), ("MF", "MF"), ("OEM", "OEM")],
    fromS := [("V2G", "V2G"), ("MO", "MO"), ("CSMS", "CSMS"), ("MF", "MF"), ("OEM", "OEM")] }

/-- `CertificateValidationResult`, include/ocpp/common/types.hpp l.473; `certificate_validation_result_to_string`, lib/ocpp/common/types.cpp l.809-828; `string_to_certificate_validation_result`, l.830-853. -/
def e_common_CertificateValidationResult : EnumTable :=
  { name := "common.CertificateValidationResult",
    decl := ["Valid", "Expired", "InvalidSignature", "IssuerNotFound", "InvalidLeafSignature", "InvalidChain", "Unknown"],
    toS := [("Valid", "Valid"), ("Expired", "Expired"), ("InvalidSignature", "InvalidSignature"), ("IssuerNotFound", "IssuerNotFound"),
      ("InvalidLeafSignature", "InvalidLeafSignature"), ("InvalidChain", "InvalidChain"), ("Unknown", "Unknown")],
    fromS := [("Valid", "Valid"), ("Expired", "Expired"), ("InvalidSignature", "InvalidSignature"), ("IssuerNotFound", "IssuerNotFound"),
      ("InvalidLeafSignature", "InvalidLeafSignature"), ("InvalidChain", "InvalidChain"), ("Unknown", "Unknown")] }

/-- `InstallCertificateResult`, include/ocpp/common/types.hpp l.498; `install_certificate_result_to_string`, lib/ocpp/common/types.cpp l.862-885; `string_to_install_certificate_result`, l.887-916. -/
def e_common_InstallCertificateResult : EnumTable :=
  { name := "common.InstallCertificateResult",
    decl := ["InvalidSignature", "InvalidCertificateChain", "InvalidFormat", "InvalidCommonName", "NoRootCertificateInstalled", "Expired",
      "CertificateStoreMaxLengthExceeded", "WriteError", "Accepted"],
    toS := [("InvalidSignature", "InvalidSignature"), ("InvalidCertificateChain", "InvalidCertificateChain"), ("InvalidFormat", "InvalidFormat"),
      ("InvalidCommonName", "InvalidCommonName"), ("NoRootCertificateInstalled", "NoRootCertificateInstalled"), ("Expired", "Expired"),
      ("CertificateStoreMaxLengthExceeded", "CertificateStoreMaxLengthExceeded"), ("WriteError", "WriteError"), ("Accepted", "Accepted")],
    fromS := [("InvalidSignature", "InvalidSignature"), ("InvalidCertificateChain", "InvalidCertificateChain"), ("InvalidFormat", "InvalidFormat"),
      ("InvalidCommonName", "InvalidCommonName"), ("NoRootCertificateInstalled", "NoRootCertificateInstalled"), ("Expired", "Expired"),
      ("CertificateStoreMaxLengthExceeded", "CertificateStoreMaxLengthExceeded"), ("WriteError", "WriteError"), ("Accepted", "Accepted")] }

/-- `DeleteCertificateResult`, include/ocpp/common/types.hpp l.525; `delete_certificate_result_to_string`, lib/ocpp/common/types.cpp l.925-936; `string_to_delete_certificate_result`, l.938-950. -/
def e_common_DeleteCertificateResult : EnumTable :=
  { name := "common.DeleteCertificateResult",
    decl := ["Accepted", "Failed", "NotFound"],
    toS := [("Accepted", "Accepted"), ("Failed", "Failed"), ("NotFound", "NotFound")],
    fromS := [("Accepted", "Accepted"), ("Failed", "Failed"), ("NotFound", "NotFound")] }

/-- `HashAlgorithmEnumType`, include/ocpp/common/types.hpp l.547; `hash_algorithm_enum_type_to_string`, lib/ocpp/common/types.cpp l.1030-1041; `string_to_hash_algorithm_enum_type`, l.1043-1055. -/
def e_common_HashAlgorithmEnumType : EnumTable :=
  { name := "common.HashAlgorithmEnumType",
    decl := ["SHA256", "SHA384", "SHA512"],
    toS := [("SHA256", "SHA256"), ("SHA384", "SHA384"), ("SHA512", "SHA512")],
    fromS := [("SHA256", "SHA256"), ("SHA384", "SHA384"), ("SHA512", "SHA512")] }

/-- `OcppProtocolVersion`, include/ocpp/common/types.hpp l.621; `ocpp_protocol_version_to_string`, lib/ocpp/common/types.cpp l.1064-1077; `string_to_ocpp_protocol_version`, l.1079-1093. -/
def e_common_OcppProtocolVersion : EnumTable :=
  { name := "common.OcppProtocolVersion",
    decl := ["v16", "v201", "v21", "Unknown"],
    toS := [("v16", "ocpp1.6"), ("v201", "ocpp2.0.1"), ("v21", "ocpp2.1"), ("Unknown", "unknown")],
    fromS := [("ocpp1.6", "v16"), ("ocpp2.0.1", "v201"), ("ocpp2.1", "v21"), ("unknown", "Unknown")] }

/-- `CertificateSigningUseEnum`, include/ocpp/common/types.hpp l.643; `certificate_signing_use_enum_to_string`, lib/ocpp/common/types.cpp l.1102-1115; `string_to_certificate_signing_use_enum`, l.1117-1132. -/
def e_common_CertificateSigningUseEnum : EnumTable :=
  { name := "common.CertificateSigningUseEnum",
    decl := ["ChargingStationCertificate", "V2GCertificate", "ManufacturerCertificate", "V2G20Certificate"],
    toS := [("ChargingStationCertificate", "ChargingStationCertificate"), ("V2GCertificate", "V2GCertificate"), ("ManufacturerCertificate",
      "ManufacturerCertificate"), ("V2G20Certificate", "V2G20Certificate")],
    fromS := [("ChargingStationCertificate", "ChargingStationCertificate"), ("V2GCertificate", "V2GCertificate"), ("ManufacturerCertificate",
      "ManufacturerCertificate"), ("V2G20Certificate", "V2G20Certificate")] }

/-- `CertificateType`, include/ocpp/common/types.hpp l.583; `certificate_type_to_string`, lib/ocpp/common/types.cpp l.1141-1158; `string_to_certificate_type`, l.1160-1181. -/
def e_common_CertificateType : EnumTable :=
  { name := "common.CertificateType",
    decl := ["V2GRootCertificate", "MORootCertificate", "CSMSRootCertificate", "V2GCertificateChain", "MFRootCertificate", "OEMRootCertificate"],
    toS := [("V2GRootCertificate", "V2GRootCertificate"), ("MORootCertificate", "MORootCertificate"), ("CSMSRootCertificate", "CSMSRootCertificate"),
      ("V2GCertificateChain", "V2GCertificateChain"), ("MFRootCertificate", "MFRootCertificate"), ("OEMRootCertificate", "OEMRootCertificate")],
    fromS := [("V2GRootCertificate", "V2GRootCertificate"), ("MORootCertificate", "MORootCertificate"), ("CSMSRootCertificate",
      "CSMSRootCertificate"), ("V2GCertificateChain", "V2GCertificateChain"), ("MFRootCertificate", "MFRootCertificate"), ("OEMRootCertificate",
      "OEMRootCertificate")] }

/-- `MessageType`, include/ocpp/v16/types.hpp l.23; `messagetype_to_string`, lib/ocpp/v16/types.cpp l.17-180; `string_to_messagetype`, l.182-419. -/
def e_v16_MessageType : EnumTable :=
  { name := "v16.MessageType",
    decl := ["Authorize", "AuthorizeResponse", "BootNotification", "BootNotificationResponse", "CancelReservation", "CancelReservationResponse",
      "CertificateSigned", "CertificateSignedResponse", "ChangeAvailability", "ChangeAvailabilityResponse", "ChangeConfiguration",
      "ChangeConfigurationResponse", "ClearCache", "ClearCacheResponse", "ClearChargingProfile", "ClearChargingProfileResponse", "DataTransfer",
      "DataTransferResponse", "DeleteCertificate", "DeleteCertificateResponse", "DiagnosticsStatusNotification",
      "DiagnosticsStatusNotificationResponse", "ExtendedTriggerMessage", "ExtendedTriggerMessageResponse", "FirmwareStatusNotification",
      "FirmwareStatusNotificationResponse", "GetCompositeSchedule", "GetCompositeScheduleResponse", "GetConfiguration", "GetConfigurationResponse",
      "GetDiagnostics", "GetDiagnosticsResponse", "GetInstalledCertificateIds", "GetInstalledCertificateIdsResponse", "GetLocalListVersion",
      "GetLocalListVersionResponse", "GetLog", "GetLogResponse", "Heartbeat", "HeartbeatResponse", "InstallCertificate", "InstallCertificateResponse",
      "LogStatusNotification", "LogStatusNotificationResponse", "MeterValues", "MeterValuesResponse", "RemoteStartTransaction",
      "RemoteStartTransactionResponse", "RemoteStopTransaction", "RemoteStopTransactionResponse", "ReserveNow", "ReserveNowResponse", "Reset",
      "ResetResponse", "SecurityEventNotification", "SecurityEventNotificationResponse", "SendLocalList", "SendLocalListResponse",
      "SetChargingProfile", "SetChargingProfileResponse", "SignCertificate", "SignCertificateResponse", "SignedFirmwareStatusNotification",
      "SignedFirmwareStatusNotificationResponse", "SignedUpdateFirmware", "SignedUpdateFirmwareResponse", "StartTransaction",
      "StartTransactionResponse", "StatusNotification", "StatusNotificationResponse", "StopTransaction", "StopTransactionResponse", "TriggerMessage",
      "TriggerMessageResponse", "UnlockConnector", "UnlockConnectorResponse", "UpdateFirmware", "UpdateFirmwareResponse", "InternalError"],
    toS := [("Authorize", "Authorize"), ("AuthorizeResponse", "AuthorizeResponse"), ("BootNotification", "BootNotification"),
      ("BootNotificationResponse", "BootNotificationResponse"), ("CancelReservation", "CancelReservation"), ("CancelReservationResponse",
      "CancelReservationResponse"), ("CertificateSigned", "CertificateSigned"), ("CertificateSignedResponse", "CertificateSignedResponse"),
      ("ChangeAvailability", "ChangeAvailability"), ("ChangeAvailabilityResponse", "ChangeAvailabilityResponse"), ("ChangeConfiguration",
      "ChangeConfiguration"), ("ChangeConfigurationResponse", "ChangeConfigurationResponse"), ("ClearCache", "ClearCache"), ("ClearCacheResponse",
      "ClearCacheResponse"), ("ClearChargingProfile", "ClearChargingProfile"), ("ClearChargingProfileResponse", "ClearChargingProfileResponse"),
      ("DataTransfer", "DataTransfer"), ("DataTransferResponse", "DataTransferResponse"), ("DeleteCertificate", "DeleteCertificate"),
      ("DeleteCertificateResponse", "DeleteCertificateResponse"), ("DiagnosticsStatusNotification", "DiagnosticsStatusNotification"),
      ("DiagnosticsStatusNotificationResponse", "DiagnosticsStatusNotificationResponse"), ("ExtendedTriggerMessage", "ExtendedTriggerMessage"),
      ("ExtendedTriggerMessageResponse", "ExtendedTriggerMessageResponse"), ("FirmwareStatusNotification", "FirmwareStatusNotification"),
      ("FirmwareStatusNotificationResponse", "FirmwareStatusNotificationResponse"), ("GetCompositeSchedule", "GetCompositeSchedule"),
      ("GetCompositeScheduleResponse", "GetCompositeScheduleResponse"), ("GetConfiguration", "GetConfiguration"), ("GetConfigurationResponse",
      "GetConfigurationResponse"), ("GetDiagnostics", "GetDiagnostics"), ("GetDiagnosticsResponse", "GetDiagnosticsResponse"),
      ("GetInstalledCertificateIds", "GetInstalledCertificateIds"), ("GetInstalledCertificateIdsResponse", "GetInstalledCertificateIdsResponse"),
      ("GetLocalListVersion", "GetLocalListVersion"), ("GetLocalListVersionResponse", "GetLocalListVersionResponse"), ("GetLog", "GetLog"),
      ("GetLogResponse", "GetLogResponse"), ("Heartbeat", "Heartbeat"), ("HeartbeatResponse", "HeartbeatResponse"), ("InstallCertificate",
      "InstallCertificate"), ("InstallCertificateResponse", "InstallCertificateResponse"), ("LogStatusNotification", "LogStatusNotification"),
      ("LogStatusNotificationResponse", "LogStatusNotificationResponse"), ("MeterValues", "MeterValues"), ("MeterValuesResponse",
      "MeterValuesResponse"), ("RemoteStartTransaction", "RemoteStartTransaction"), ("RemoteStartTransactionResponse",
      "RemoteStartTransactionResponse"), ("RemoteStopTransaction", "RemoteStopTransaction"), ("RemoteStopTransactionResponse",
      "RemoteStopTransactionResponse"), ("ReserveNow", "ReserveNow"), ("ReserveNowResponse", "ReserveNowResponse"), ("Reset", "Reset"),
      ("ResetResponse", "ResetResponse"), ("SecurityEventNotification", "SecurityEventNotification"), ("SecurityEventNotificationResponse",
      "SecurityEventNotificationResponse"), ("SendLocalList", "SendLocalList"), ("SendLocalListResponse", "SendLocalListResponse"),
      ("SetChargingProfile", "SetChargingProfile"), ("SetChargingProfileResponse", "SetChargingProfileResponse"), ("SignCertificate",
      "SignCertificate"), ("SignCertificateResponse", "SignCertificateResponse"), ("SignedFirmwareStatusNotification",
      "SignedFirmwareStatusNotification"), ("SignedFirmwareStatusNotificationResponse", "SignedFirmwareStatusNotificationResponse"),
      ("SignedUpdateFirmware", "SignedUpdateFirmware"), ("SignedUpdateFirmwareResponse", "SignedUpdateFirmwareResponse"), ("StartTransaction",
      "StartTransaction"), ("StartTransactionResponse", "StartTransactionResponse"), ("StatusNotification", "StatusNotification"),
      ("StatusNotificationResponse", "StatusNotificationResponse"), ("StopTransaction", "StopTransaction"), ("StopTransactionResponse",
      "StopTransactionResponse"), ("TriggerMessage", "TriggerMessage"), ("TriggerMessageResponse", "TriggerMessageResponse"), ("UnlockConnector",
      "UnlockConnector"), ("UnlockConnectorResponse", "UnlockConnectorResponse"), ("UpdateFirmware", "UpdateFirmware"), ("UpdateFirmwareResponse",
      "UpdateFirmwareResponse"), ("InternalError", "InternalError")],
    fromS := [("Authorize", "Authorize"), ("AuthorizeResponse", "AuthorizeResponse"), ("BootNotification", "BootNotification"),
      ("BootNotificationResponse", "BootNotificationResponse"), ("CancelReservation", "CancelReservation"), ("CancelReservationResponse",
      "CancelReservationResponse"), ("CertificateSigned", "CertificateSigned"), ("CertificateSignedResponse", "CertificateSignedResponse"),
      ("ChangeAvailability", "ChangeAvailability"), ("ChangeAvailabilityResponse", "ChangeAvailabilityResponse"), ("ChangeConfiguration",
      "ChangeConfiguration"), ("ChangeConfigurationResponse", "ChangeConfigurationResponse"), ("ClearCache", "ClearCache"), ("ClearCacheResponse",
      "ClearCacheResponse"), ("ClearChargingProfile", "ClearChargingProfile"), ("ClearChargingProfileResponse", "ClearChargingProfileResponse"),
      ("DataTransfer", "DataTransfer"), ("DataTransferResponse", "DataTransferResponse"), ("DeleteCertificate", "DeleteCertificate"),
      ("DeleteCertificateResponse", "DeleteCertificateResponse"), ("DiagnosticsStatusNotification", "DiagnosticsStatusNotification"),
      ("DiagnosticsStatusNotificationResponse", "DiagnosticsStatusNotificationResponse"), ("ExtendedTriggerMessage", "ExtendedTriggerMessage"),
      ("ExtendedTriggerMessageResponse", "ExtendedTriggerMessageResponse"), ("FirmwareStatusNotification", "FirmwareStatusNotification"),
      ("FirmwareStatusNotificationResponse", "FirmwareStatusNotificationResponse"), ("GetCompositeSchedule", "GetCompositeSchedule"),
      ("GetCompositeScheduleResponse", "GetCompositeScheduleResponse"), ("GetConfiguration", "GetConfiguration"), ("GetConfigurationResponse",
      "GetConfigurationResponse"), ("GetDiagnostics", "GetDiagnostics"), ("GetDiagnosticsResponse", "GetDiagnosticsResponse"),
      ("GetInstalledCertificateIds", "GetInstalledCertificateIds"), ("GetInstalledCertificateIdsResponse", "GetInstalledCertificateIdsResponse"),
      ("GetLocalListVersion", "GetLocalListVersion"), ("GetLocalListVersionResponse", "GetLocalListVersionResponse"), ("GetLog", "GetLog"),
      ("GetLogResponse", "GetLogResponse"), ("Heartbeat", "Heartbeat"), ("HeartbeatResponse", "HeartbeatResponse"), ("InstallCertificate",
      "InstallCertificate"), ("InstallCertificateResponse", "InstallCertificateResponse"), ("LogStatusNotification", "LogStatusNotification"),
      ("LogStatusNotificationResponse", "LogStatusNotificationResponse"), ("MeterValues", "MeterValues"), ("MeterValuesResponse",
      "MeterValuesResponse"), ("RemoteStartTransaction", "RemoteStartTransaction"), ("RemoteStartTransactionResponse",
      "RemoteStartTransactionResponse"), ("RemoteStopTransaction", "RemoteStopTransaction"), ("RemoteStopTransactionResponse",
      "RemoteStopTransactionResponse"), ("ReserveNow", "ReserveNow"), ("ReserveNowResponse", "ReserveNowResponse"), ("Reset", "Reset"),
      ("ResetResponse", "ResetResponse"), ("SecurityEventNotification", "SecurityEventNotification"), ("SecurityEventNotificationResponse",
      "SecurityEventNotificationResponse"), ("SendLocalList", "SendLocalList"), ("SendLocalListResponse", "SendLocalListResponse"),
      ("SetChargingProfile", "SetChargingProfile"), ("SetChargingProfileResponse", "SetChargingProfileResponse"), ("SignCertificate",
      "SignCertificate"), ("SignCertificateResponse", "SignCertificateResponse"), ("SignedFirmwareStatusNotification",
      "SignedFirmwareStatusNotification"), ("SignedFirmwareStatusNotificationResponse", "SignedFirmwareStatusNotificationResponse"),
      ("SignedUpdateFirmware", "SignedUpdateFirmware"), ("SignedUpdateFirmwareResponse", "SignedUpdateFirmwareResponse"), ("StartTransaction",
      "StartTransaction"), ("StartTransactionResponse", "StartTransactionResponse"), ("StatusNotification", "StatusNotification"),
      ("StatusNotificationResponse", "StatusNotificationResponse"), ("StopTransaction", "StopTransaction"), ("StopTransactionResponse",
      "StopTransactionResponse"), ("TriggerMessage", "TriggerMessage"), ("TriggerMessageResponse", "TriggerMessageResponse"), ("UnlockConnector",
      "UnlockConnector"), ("UnlockConnectorResponse", "UnlockConnectorResponse"), ("UpdateFirmware", "UpdateFirmware"), ("UpdateFirmwareResponse",
      "UpdateFirmwareResponse")] }

/-- `SupportedFeatureProfiles`, include/ocpp/v16/types.hpp l.120; `supported_feature_profiles_to_string`, lib/ocpp/v16/types.cpp l.431-458; `string_to_supported_feature_profiles`, l.462-498. -/
def e_v16_SupportedFeatureProfiles : EnumTable :=
  { name := "v16.SupportedFeatureProfiles",
    decl := ["Internal", "Core", "CostAndPrice", "FirmwareManagement", "LocalAuthListManagement", "Reservation", "SmartCharging", "RemoteTrigger",
      "Security", "PnC", "Custom"],
    toS := [("Internal", "Internal"), ("Core", "Core"), ("FirmwareManagement", "FirmwareManagement"), ("LocalAuthListManagement",
      "LocalAuthListManagement"), ("Reservation", "Reservation"), ("SmartCharging", "SmartCharging"), ("RemoteTrigger", "RemoteTrigger"), ("Security",
      "Security"), ("PnC", "PnC"), ("CostAndPrice", "CostAndPrice"), ("Custom", "Custom")],
    fromS := [("Internal", "Internal"), ("Core", "Core"), ("FirmwareManagement", "FirmwareManagement"), ("LocalAuthListManagement",
      "LocalAuthListManagement"), ("Reservation", "Reservation"), ("SmartCharging", "SmartCharging"), ("RemoteTrigger", "RemoteTrigger"), ("Security",
      "Security"), ("PnC", "PnC"), ("CostAndPrice", "CostAndPrice"), ("Custom", "Custom")] }

/-- `ChargePointConnectionState`, include/ocpp/v16/types.hpp l.148; `charge_point_connection_state_to_string`, lib/ocpp/v16/types.cpp l.510-525; `string_to_charge_point_connection_state`, l.527-545. -/
def e_v16_ChargePointConnectionState : EnumTable :=
  { name := "v16.ChargePointConnectionState",
    decl := ["Disconnected", "Connected", "Booted", "Pending", "Rejected"],
    toS := [("Disconnected", "Disconnected"), ("Connected", "Connected"), ("Booted", "Booted"), ("Pending", "Pending"), ("Rejected", "Rejected")],
    fromS := [("Disconnected", "Disconnected"), ("Connected", "Connected"), ("Booted", "Booted"), ("Pending", "Pending"), ("Rejected", "Rejected")] }

/-- `MessageType`, include/ocpp/v2/types.hpp l.15; `messagetype_to_string`, lib/ocpp/v2/types.cpp l.13-375; `string_to_messagetype`, l.377-916. -/
def e_v2_MessageType : EnumTable :=
  { name := "v2.MessageType",
    decl := ["Authorize", "AuthorizeResponse", "BootNotification", "BootNotificationResponse", "CancelReservation", "CancelReservationResponse",
      "CertificateSigned", "CertificateSignedResponse", "ChangeAvailability", "ChangeAvailabilityResponse", "ClearCache", "ClearCacheResponse",
      "ClearChargingProfile", "ClearChargingProfileResponse", "ClearDisplayMessage", "ClearDisplayMessageResponse", "ClearedChargingLimit",
      "ClearedChargingLimitResponse", "ClearVariableMonitoring", "ClearVariableMonitoringResponse", "CostUpdated", "CostUpdatedResponse",
      "CustomerInformation", "CustomerInformationResponse", "DataTransfer", "DataTransferResponse", "DeleteCertificate", "DeleteCertificateResponse",
      "FirmwareStatusNotification", "FirmwareStatusNotificationResponse", "Get15118EVCertificate", "Get15118EVCertificateResponse", "GetBaseReport",
      "GetBaseReportResponse", "GetCertificateStatus", "GetCertificateStatusResponse", "GetChargingProfiles", "GetChargingProfilesResponse",
      "GetCompositeSchedule", "GetCompositeScheduleResponse", "GetDisplayMessages", "GetDisplayMessagesResponse", "GetInstalledCertificateIds",
      "GetInstalledCertificateIdsResponse", "GetLocalListVersion", "GetLocalListVersionResponse", "GetLog", "GetLogResponse", "GetMonitoringReport",
      "GetMonitoringReportResponse", "GetReport", "GetReportResponse", "GetTransactionStatus", "GetTransactionStatusResponse", "GetVariables",
      "GetVariablesResponse", "Heartbeat", "HeartbeatResponse", "InstallCertificate", "InstallCertificateResponse", "LogStatusNotification",
      "LogStatusNotificationResponse", "MeterValues", "MeterValuesResponse", "NotifyChargingLimit", "NotifyChargingLimitResponse",
      "NotifyCustomerInformation", "NotifyCustomerInformationResponse", "NotifyDisplayMessages", "NotifyDisplayMessagesResponse",
      "NotifyEVChargingNeeds", "NotifyEVChargingNeedsResponse", "NotifyEVChargingSchedule", "NotifyEVChargingScheduleResponse", "NotifyEvent",
      "NotifyEventResponse", "NotifyMonitoringReport", "NotifyMonitoringReportResponse", "NotifyReport", "NotifyReportResponse", "PublishFirmware",
      "PublishFirmwareResponse", "PublishFirmwareStatusNotification", "PublishFirmwareStatusNotificationResponse", "ReportChargingProfiles",
      "ReportChargingProfilesResponse", "RequestStartTransaction", "RequestStartTransactionResponse", "RequestStopTransaction",
      "RequestStopTransactionResponse", "ReservationStatusUpdate", "ReservationStatusUpdateResponse", "ReserveNow", "ReserveNowResponse", "Reset",
      "ResetResponse", "SecurityEventNotification", "SecurityEventNotificationResponse", "SendLocalList", "SendLocalListResponse",
      "SetChargingProfile", "SetChargingProfileResponse", "SetDisplayMessage", "SetDisplayMessageResponse", "SetMonitoringBase",
      "SetMonitoringBaseResponse", "SetMonitoringLevel", "SetMonitoringLevelResponse", "SetNetworkProfile", "SetNetworkProfileResponse",
      "SetVariableMonitoring", "SetVariableMonitoringResponse", "SetVariables", "SetVariablesResponse", "SignCertificate", "SignCertificateResponse",
      "StatusNotification", "StatusNotificationResponse", "TransactionEvent", "TransactionEventResponse", "TriggerMessage", "TriggerMessageResponse",
      "UnlockConnector", "UnlockConnectorResponse", "UnpublishFirmware", "UnpublishFirmwareResponse", "UpdateFirmware", "UpdateFirmwareResponse",
      "AdjustPeriodicEventStream", "AdjustPeriodicEventStreamResponse", "AFRRSignal", "AFRRSignalResponse", "BatterySwap", "BatterySwapResponse",
      "ChangeTransactionTariff", "ChangeTransactionTariffResponse", "ClearDERControl", "ClearDERControlResponse", "ClearTariffs",
      "ClearTariffsResponse", "ClosePeriodicEventStream", "ClosePeriodicEventStreamResponse", "GetCRL", "GetCRLResponse", "GetDERControl",
      "GetDERControlResponse", "GetPeriodicEventStream", "GetPeriodicEventStreamResponse", "GetTariffs", "GetTariffsResponse",
      "NotifyAllowedEnergyTransfer", "NotifyAllowedEnergyTransferResponse", "NotifyDERAlarm", "NotifyDERAlarmResponse", "NotifyDERStartStop",
      "NotifyDERStartStopResponse", "NotifyPeriodicEventStream", "NotifyPeriodicEventStreamResponse", "NotifyPriorityCharging",
      "NotifyPriorityChargingResponse", "NotifySettlement", "NotifySettlementResponse", "OpenPeriodicEventStream", "OpenPeriodicEventStreamResponse",
      "PullDynamicScheduleUpdate", "PullDynamicScheduleUpdateResponse", "RequestBatterySwap", "RequestBatterySwapResponse", "SetDefaultTariff",
      "SetDefaultTariffResponse", "SetDERControl", "SetDERControlResponse", "UpdateDynamicSchedule", "UpdateDynamicScheduleResponse",
      "UsePriorityCharging", "UsePriorityChargingResponse", "VatNumberValidation", "VatNumberValidationResponse", "InternalError"],
    toS := [("Authorize", "Authorize"), ("AuthorizeResponse", "AuthorizeResponse"), ("BootNotification", "BootNotification"),
      ("BootNotificationResponse", "BootNotificationResponse"), ("CancelReservation", "CancelReservation"), ("CancelReservationResponse",
      "CancelReservationResponse"), ("CertificateSigned", "CertificateSigned"), ("CertificateSignedResponse", "CertificateSignedResponse"),
      ("ChangeAvailability", "ChangeAvailability"), ("ChangeAvailabilityResponse", "ChangeAvailabilityResponse"), ("ClearCache", "ClearCache"),
      ("ClearCacheResponse", "ClearCacheResponse"), ("ClearChargingProfile", "ClearChargingProfile"), ("ClearChargingProfileResponse",
      "ClearChargingProfileResponse"), ("ClearDisplayMessage", "ClearDisplayMessage"), ("ClearDisplayMessageResponse", "ClearDisplayMessageResponse"),
      ("ClearedChargingLimit", "ClearedChargingLimit"), ("ClearedChargingLimitResponse", "ClearedChargingLimitResponse"), ("ClearVariableMonitoring",
      "ClearVariableMonitoring"), ("ClearVariableMonitoringResponse", "ClearVariableMonitoringResponse"), ("CostUpdated", "CostUpdated"),
      ("CostUpdatedResponse", "CostUpdatedResponse"), ("CustomerInformation", "CustomerInformation"), ("CustomerInformationResponse",
      "CustomerInformationResponse"), ("DataTransfer", "DataTransfer"), ("DataTransferResponse", "DataTransferResponse"), ("DeleteCertificate",
      "DeleteCertificate"), ("DeleteCertificateResponse", "DeleteCertificateResponse"), ("FirmwareStatusNotification", "FirmwareStatusNotification"),
      ("FirmwareStatusNotificationResponse", "FirmwareStatusNotificationResponse"), ("Get15118EVCertificate", "Get15118EVCertificate"),
      ("Get15118EVCertificateResponse", "Get15118EVCertificateResponse"), ("GetBaseReport", "GetBaseReport"), ("GetBaseReportResponse",
      "GetBaseReportResponse"), ("GetCertificateStatus", "GetCertificateStatus"), ("GetCertificateStatusResponse", "GetCertificateStatusResponse"),
      ("GetChargingProfiles", "GetChargingProfiles"), ("GetChargingProfilesResponse", "GetChargingProfilesResponse"), ("GetCompositeSchedule",
      "GetCompositeSchedule"), ("GetCompositeScheduleResponse", "GetCompositeScheduleResponse"), ("GetDisplayMessages", "GetDisplayMessages"),
      ("GetDisplayMessagesResponse", "GetDisplayMessagesResponse"), ("GetInstalledCertificateIds", "GetInstalledCertificateIds"),
      ("GetInstalledCertificateIdsResponse", "GetInstalledCertificateIdsResponse"), ("GetLocalListVersion", "GetLocalListVersion"),
      ("GetLocalListVersionResponse", "GetLocalListVersionResponse"), ("GetLog", "GetLog"), ("GetLogResponse", "GetLogResponse"),
      ("GetMonitoringReport", "GetMonitoringReport"), ("GetMonitoringReportResponse", "GetMonitoringReportResponse"), ("GetReport", "GetReport"),
      ("GetReportResponse", "GetReportResponse"), ("GetTransactionStatus", "GetTransactionStatus"), ("GetTransactionStatusResponse",
      "GetTransactionStatusResponse"), ("GetVariables", "GetVariables"), ("GetVariablesResponse", "GetVariablesResponse"), ("Heartbeat", "Heartbeat"),
      ("HeartbeatResponse", "HeartbeatResponse"), ("InstallCertificate", "InstallCertificate"), ("InstallCertificateResponse",
      "InstallCertificateResponse"), ("LogStatusNotification", "LogStatusNotification"), ("LogStatusNotificationResponse",
      "LogStatusNotificationResponse"), ("MeterValues", "MeterValues"), ("MeterValuesResponse", "MeterValuesResponse"), ("NotifyChargingLimit",
      "NotifyChargingLimit"), ("NotifyChargingLimitResponse", "NotifyChargingLimitResponse"), ("NotifyCustomerInformation",
      "NotifyCustomerInformation"), ("NotifyCustomerInformationResponse", "NotifyCustomerInformationResponse"), ("NotifyDisplayMessages",
      "NotifyDisplayMessages"), ("NotifyDisplayMessagesResponse", "NotifyDisplayMessagesResponse"), ("NotifyEVChargingNeeds",
      "NotifyEVChargingNeeds"), ("NotifyEVChargingNeedsResponse", "NotifyEVChargingNeedsResponse"), ("NotifyEVChargingSchedule",
      "NotifyEVChargingSchedule"), ("NotifyEVChargingScheduleResponse", "NotifyEVChargingScheduleResponse"), ("NotifyEvent", "NotifyEvent"),
      ("NotifyEventResponse", "NotifyEventResponse"), ("NotifyMonitoringReport", "NotifyMonitoringReport"), ("NotifyMonitoringReportResponse",
      "NotifyMonitoringReportResponse"), ("NotifyReport", "NotifyReport"), ("NotifyReportResponse", "NotifyReportResponse"), ("PublishFirmware",
      "PublishFirmware"), ("PublishFirmwareResponse", "PublishFirmwareResponse"), ("PublishFirmwareStatusNotification",
      "PublishFirmwareStatusNotification"), ("PublishFirmwareStatusNotificationResponse", "PublishFirmwareStatusNotificationResponse"),
      ("ReportChargingProfiles", "ReportChargingProfiles"), ("ReportChargingProfilesResponse", "ReportChargingProfilesResponse"),
      ("RequestStartTransaction", "RequestStartTransaction"), ("RequestStartTransactionResponse", "RequestStartTransactionResponse"),
      ("RequestStopTransaction", "RequestStopTransaction"), ("RequestStopTransactionResponse", "RequestStopTransactionResponse"),
      ("ReservationStatusUpdate", "ReservationStatusUpdate"), ("ReservationStatusUpdateResponse", "ReservationStatusUpdateResponse"), ("ReserveNow",
      "ReserveNow"), ("ReserveNowResponse", "ReserveNowResponse"), ("Reset", "Reset"), ("ResetResponse", "ResetResponse"),
      ("SecurityEventNotification", "SecurityEventNotification"), ("SecurityEventNotificationResponse", "SecurityEventNotificationResponse"),
      ("SendLocalList", "SendLocalList"), ("SendLocalListResponse", "SendLocalListResponse"), ("SetChargingProfile", "SetChargingProfile"),
      ("SetChargingProfileResponse", "SetChargingProfileResponse"), ("SetDisplayMessage", "SetDisplayMessage"), ("SetDisplayMessageResponse",
      "SetDisplayMessageResponse"), ("SetMonitoringBase", "SetMonitoringBase"), ("SetMonitoringBaseResponse", "SetMonitoringBaseResponse"),
      ("SetMonitoringLevel", "SetMonitoringLevel"), ("SetMonitoringLevelResponse", "SetMonitoringLevelResponse"), ("SetNetworkProfile",
      "SetNetworkProfile"), ("SetNetworkProfileResponse", "SetNetworkProfileResponse"), ("SetVariableMonitoring", "SetVariableMonitoring"),
      ("SetVariableMonitoringResponse", "SetVariableMonitoringResponse"), ("SetVariables", "SetVariables"), ("SetVariablesResponse",
      "SetVariablesResponse"), ("SignCertificate", "SignCertificate"), ("SignCertificateResponse", "SignCertificateResponse"), ("StatusNotification",
      "StatusNotification"), ("StatusNotificationResponse", "StatusNotificationResponse"), ("TransactionEvent", "TransactionEvent"),
      ("TransactionEventResponse", "TransactionEventResponse"), ("TriggerMessage", "TriggerMessage"), ("TriggerMessageResponse",
      "TriggerMessageResponse"), ("UnlockConnector", "UnlockConnector"), ("UnlockConnectorResponse", "UnlockConnectorResponse"), ("UnpublishFirmware",
      "UnpublishFirmware"), ("UnpublishFirmwareResponse", "UnpublishFirmwareResponse"), ("UpdateFirmware", "UpdateFirmware"),
      ("UpdateFirmwareResponse", "UpdateFirmwareResponse"), ("AdjustPeriodicEventStream", "AdjustPeriodicEventStream"),
      ("AdjustPeriodicEventStreamResponse", "AdjustPeriodicEventStreamResponse"), ("AFRRSignal", "AFRRSignal"), ("AFRRSignalResponse",
      "AFRRSignalResponse"), ("BatterySwap", "BatterySwap"), ("BatterySwapResponse", "BatterySwapResponse"), ("ChangeTransactionTariff",
      "ChangeTransactionTariff"), ("ChangeTransactionTariffResponse", "ChangeTransactionTariffResponse"), ("ClearDERControl", "ClearDERControl"),
      ("ClearDERControlResponse", "ClearDERControlResponse"), ("ClearTariffs", "ClearTariffs"), ("ClearTariffsResponse", "ClearTariffsResponse"),
      ("ClosePeriodicEventStream", "ClosePeriodicEventStream"), ("ClosePeriodicEventStreamResponse", "ClosePeriodicEventStreamResponse"), ("GetCRL",
      "GetCRL"), ("GetCRLResponse", "GetCRLResponse"), ("GetDERControl", "GetDERControl"), ("GetDERControlResponse", "GetDERControlResponse"),
      ("GetPeriodicEventStream", "GetPeriodicEventStream"), ("GetPeriodicEventStreamResponse", "GetPeriodicEventStreamResponse"), ("GetTariffs",
      "GetTariffs"), ("GetTariffsResponse", "GetTariffsResponse"), ("NotifyAllowedEnergyTransfer", "NotifyAllowedEnergyTransfer"),
      ("NotifyAllowedEnergyTransferResponse", "NotifyAllowedEnergyTransferResponse"), ("NotifyDERAlarm", "NotifyDERAlarm"), ("NotifyDERAlarmResponse",
      "NotifyDERAlarmResponse"), ("NotifyDERStartStop", "NotifyDERStartStop"), ("NotifyDERStartStopResponse", "NotifyDERStartStopResponse"),
      ("NotifyPeriodicEventStream", "NotifyPeriodicEventStream"), ("NotifyPeriodicEventStreamResponse", "NotifyPeriodicEventStreamResponse"),
      ("NotifyPriorityCharging", "NotifyPriorityCharging"), ("NotifyPriorityChargingResponse", "NotifyPriorityChargingResponse"), ("NotifySettlement",
      "NotifySettlement"), ("NotifySettlementResponse", "NotifySettlementResponse"), ("OpenPeriodicEventStream", "OpenPeriodicEventStream"),
      ("OpenPeriodicEventStreamResponse", "OpenPeriodicEventStreamResponse"), ("PullDynamicScheduleUpdate", "PullDynamicScheduleUpdate"),
      ("PullDynamicScheduleUpdateResponse", "PullDynamicScheduleUpdateResponse"), ("RequestBatterySwap", "RequestBatterySwap"),
      ("RequestBatterySwapResponse", "RequestBatterySwapResponse"), ("SetDefaultTariff", "SetDefaultTariff"), ("SetDefaultTariffResponse",
      "SetDefaultTariffResponse"), ("SetDERControl", "SetDERControl"), ("SetDERControlResponse", "SetDERControlResponse"), ("UpdateDynamicSchedule",
      "UpdateDynamicSchedule"), ("UpdateDynamicScheduleResponse", "UpdateDynamicScheduleResponse"), ("UsePriorityCharging", "UsePriorityCharging"),
      ("UsePriorityChargingResponse", "UsePriorityChargingResponse"), ("VatNumberValidation", "VatNumberValidation"), ("VatNumberValidationResponse",
      "VatNumberValidationResponse"), ("InternalError", "InternalError")],
    fromS := [("Authorize", "Authorize"), ("AuthorizeResponse", "AuthorizeResponse"), ("BootNotification", "BootNotification"),
      ("BootNotificationResponse", "BootNotificationResponse"), ("CancelReservation", "CancelReservation"), ("CancelReservationResponse",
      "CancelReservationResponse"), ("CertificateSigned", "CertificateSigned"), ("CertificateSignedResponse", "CertificateSignedResponse"),
      ("ChangeAvailability", "ChangeAvailability"), ("ChangeAvailabilityResponse", "ChangeAvailabilityResponse"), ("ClearCache", "ClearCache"),
      ("ClearCacheResponse", "ClearCacheResponse"), ("ClearChargingProfile", "ClearChargingProfile"), ("ClearChargingProfileResponse",
      "ClearChargingProfileResponse"), ("ClearDisplayMessage", "ClearDisplayMessage"), ("ClearDisplayMessageResponse", "ClearDisplayMessageResponse"),
      ("ClearedChargingLimit", "ClearedChargingLimit"), ("ClearedChargingLimitResponse", "ClearedChargingLimitResponse"), ("ClearVariableMonitoring",
      "ClearVariableMonitoring"), ("ClearVariableMonitoringResponse", "ClearVariableMonitoringResponse"), ("CostUpdated", "CostUpdated"),
      ("CostUpdatedResponse", "CostUpdatedResponse"), ("CustomerInformation", "CustomerInformation"), ("CustomerInformationResponse",
      "CustomerInformationResponse"), ("DataTransfer", "DataTransfer"), ("DataTransferResponse", "DataTransferResponse"), ("DeleteCertificate",
      "DeleteCertificate"), ("DeleteCertificateResponse", "DeleteCertificateResponse"), ("FirmwareStatusNotification", "FirmwareStatusNotification"),
      ("FirmwareStatusNotificationResponse", "FirmwareStatusNotificationResponse"), ("Get15118EVCertificate", "Get15118EVCertificate"),
      ("Get15118EVCertificateResponse", "Get15118EVCertificateResponse"), ("GetBaseReport", "GetBaseReport"), ("GetBaseReportResponse",
      "GetBaseReportResponse"), ("GetCertificateStatus", "GetCertificateStatus"), ("GetCertificateStatusResponse", "GetCertificateStatusResponse"),
      ("GetChargingProfiles", "GetChargingProfiles"), ("GetChargingProfilesResponse", "GetChargingProfilesResponse"), ("GetCompositeSchedule",
      "GetCompositeSchedule"), ("GetCompositeScheduleResponse", "GetCompositeScheduleResponse"), ("GetDisplayMessages", "GetDisplayMessages"),
      ("GetDisplayMessagesResponse", "GetDisplayMessagesResponse"), ("GetInstalledCertificateIds", "GetInstalledCertificateIds"),
      ("GetInstalledCertificateIdsResponse", "GetInstalledCertificateIdsResponse"), ("GetLocalListVersion", "GetLocalListVersion"),
      ("GetLocalListVersionResponse", "GetLocalListVersionResponse"), ("GetLog", "GetLog"), ("GetLogResponse", "GetLogResponse"),
      ("GetMonitoringReport", "GetMonitoringReport"), ("GetMonitoringReportResponse", "GetMonitoringReportResponse"), ("GetReport", "GetReport"),
      ("GetReportResponse", "GetReportResponse"), ("GetTransactionStatus", "GetTransactionStatus"), ("GetTransactionStatusResponse",
      "GetTransactionStatusResponse"), ("GetVariables", "GetVariables"), ("GetVariablesResponse", "GetVariablesResponse"), ("Heartbeat", "Heartbeat"),
      ("HeartbeatResponse", "HeartbeatResponse"), ("InstallCertificate", "InstallCertificate"), ("InstallCertificateResponse",
      "InstallCertificateResponse"), ("LogStatusNotification", "LogStatusNotification"), ("LogStatusNotificationResponse",
      "LogStatusNotificationResponse"), ("MeterValues", "MeterValues"), ("MeterValuesResponse", "MeterValuesResponse"), ("NotifyChargingLimit",
      "NotifyChargingLimit"), ("NotifyChargingLimitResponse", "NotifyChargingLimitResponse"), ("NotifyCustomerInformation",
      "NotifyCustomerInformation"), ("NotifyCustomerInformationResponse", "NotifyCustomerInformationResponse"), ("NotifyDisplayMessages",
      "NotifyDisplayMessages"), ("NotifyDisplayMessagesResponse", "NotifyDisplayMessagesResponse"), ("NotifyEVChargingNeeds",
      "NotifyEVChargingNeeds"), ("NotifyEVChargingNeedsResponse", "NotifyEVChargingNeedsResponse"), ("NotifyEVChargingSchedule",
      "NotifyEVChargingSchedule"), ("NotifyEVChargingScheduleResponse", "NotifyEVChargingScheduleResponse"), ("NotifyEvent", "NotifyEvent"),
      ("NotifyEventResponse", "NotifyEventResponse"), ("NotifyMonitoringReport", "NotifyMonitoringReport"), ("NotifyMonitoringReportResponse",
      "NotifyMonitoringReportResponse"), ("NotifyReport", "NotifyReport"), ("NotifyReportResponse", "NotifyReportResponse"), ("PublishFirmware",
      "PublishFirmware"), ("PublishFirmwareResponse", "PublishFirmwareResponse"), ("PublishFirmwareStatusNotification",
      "PublishFirmwareStatusNotification"), ("PublishFirmwareStatusNotificationResponse", "PublishFirmwareStatusNotificationResponse"),
      ("ReportChargingProfiles", "ReportChargingProfiles"), ("ReportChargingProfilesResponse", "ReportChargingProfilesResponse"),
      ("RequestStartTransaction", "RequestStartTransaction"), ("RequestStartTransactionResponse", "RequestStartTransactionResponse"),
      ("RequestStopTransaction", "RequestStopTransaction"), ("RequestStopTransactionResponse", "RequestStopTransactionResponse"),
      ("ReservationStatusUpdate", "ReservationStatusUpdate"), ("ReservationStatusUpdateResponse", "ReservationStatusUpdateResponse"), ("ReserveNow",
      "ReserveNow"), ("ReserveNowResponse", "ReserveNowResponse"), ("Reset", "Reset"), ("ResetResponse", "ResetResponse"),
      ("SecurityEventNotification", "SecurityEventNotification"), ("SecurityEventNotificationResponse", "SecurityEventNotificationResponse"),
      ("SendLocalList", "SendLocalList"), ("SendLocalListResponse", "SendLocalListResponse"), ("SetChargingProfile", "SetChargingProfile"),
      ("SetChargingProfileResponse", "SetChargingProfileResponse"), ("SetDisplayMessage", "SetDisplayMessage"), ("SetDisplayMessageResponse",
      "SetDisplayMessageResponse"), ("SetMonitoringBase", "SetMonitoringBase"), ("SetMonitoringBaseResponse", "SetMonitoringBaseResponse"),
      ("SetMonitoringLevel", "SetMonitoringLevel"), ("SetMonitoringLevelResponse", "SetMonitoringLevelResponse"), ("SetNetworkProfile",
      "SetNetworkProfile"), ("SetNetworkProfileResponse", "SetNetworkProfileResponse"), ("SetVariableMonitoring", "SetVariableMonitoring"),
      ("SetVariableMonitoringResponse", "SetVariableMonitoringResponse"), ("SetVariables", "SetVariables"), ("SetVariablesResponse",
      "SetVariablesResponse"), ("SignCertificate", "SignCertificate"), ("SignCertificateResponse", "SignCertificateResponse"), ("StatusNotification",
      "StatusNotification"), ("StatusNotificationResponse", "StatusNotificationResponse"), ("TransactionEvent", "TransactionEvent"),
      ("TransactionEventResponse", "TransactionEventResponse"), ("TriggerMessage", "TriggerMessage"), ("TriggerMessageResponse",
      "TriggerMessageResponse"), ("UnlockConnector", "UnlockConnector"), ("UnlockConnectorResponse", "UnlockConnectorResponse"), ("UnpublishFirmware",
      "UnpublishFirmware"), ("UnpublishFirmwareResponse", "UnpublishFirmwareResponse"), ("UpdateFirmware", "UpdateFirmware"),
      ("UpdateFirmwareResponse", "UpdateFirmwareResponse"), ("InternalError", "InternalError"), ("AdjustPeriodicEventStream",
      "AdjustPeriodicEventStream"), ("AdjustPeriodicEventStreamResponse", "AdjustPeriodicEventStreamResponse"), ("AFRRSignal", "AFRRSignal"),
      ("AFRRSignalResponse", "AFRRSignalResponse"), ("BatterySwap", "BatterySwap"), ("BatterySwapResponse", "BatterySwapResponse"),
      ("ChangeTransactionTariff", "ChangeTransactionTariff"), ("ChangeTransactionTariffResponse", "ChangeTransactionTariffResponse"),
      ("ClearDERControl", "ClearDERControl"), ("ClearDERControlResponse", "ClearDERControlResponse"), ("ClearTariffs", "ClearTariffs"),
      ("ClearTariffsResponse", "ClearTariffsResponse"), ("ClosePeriodicEventStream", "ClosePeriodicEventStream"), ("ClosePeriodicEventStreamResponse",
      "ClosePeriodicEventStreamResponse"), ("GetCRL", "GetCRL"), ("GetCRLResponse", "GetCRLResponse"), ("GetDERControl", "GetDERControl"),
      ("GetDERControlResponse", "GetDERControlResponse"), ("GetPeriodicEventStream", "GetPeriodicEventStream"), ("GetPeriodicEventStreamResponse",
      "GetPeriodicEventStreamResponse"), ("GetTariffs", "GetTariffs"), ("GetTariffsResponse", "GetTariffsResponse"), ("NotifyAllowedEnergyTransfer",
      "NotifyAllowedEnergyTransfer"), ("NotifyAllowedEnergyTransferResponse", "NotifyAllowedEnergyTransferResponse"), ("NotifyDERAlarm",
      "NotifyDERAlarm"), ("NotifyDERAlarmResponse", "NotifyDERAlarmResponse"), ("NotifyDERStartStop", "NotifyDERStartStop"),
      ("NotifyDERStartStopResponse", "NotifyDERStartStopResponse"), ("NotifyPeriodicEventStream", "NotifyPeriodicEventStream"),
      ("NotifyPeriodicEventStreamResponse", "NotifyPeriodicEventStreamResponse"), ("NotifyPriorityCharging", "NotifyPriorityCharging"),
      ("NotifyPriorityChargingResponse", "NotifyPriorityChargingResponse"), ("NotifySettlement", "NotifySettlement"), ("NotifySettlementResponse",
      "NotifySettlementResponse"), ("OpenPeriodicEventStream", "OpenPeriodicEventStream"), ("OpenPeriodicEventStreamResponse",
      "OpenPeriodicEventStreamResponse"), ("PullDynamicScheduleUpdate", "PullDynamicScheduleUpdate"), ("PullDynamicScheduleUpdateResponse",
      "PullDynamicScheduleUpdateResponse"), ("RequestBatterySwap", "RequestBatterySwap"), ("RequestBatterySwapResponse",
      "RequestBatterySwapResponse"), ("SetDefaultTariff", "SetDefaultTariff"), ("SetDefaultTariffResponse", "SetDefaultTariffResponse"),
      ("SetDERControl", "SetDERControl"), ("SetDERControlResponse", "SetDERControlResponse"), ("UpdateDynamicSchedule", "UpdateDynamicSchedule"),
      ("UpdateDynamicScheduleResponse", "UpdateDynamicScheduleResponse"), ("UsePriorityCharging", "UsePriorityCharging"),
      ("UsePriorityChargingResponse", "UsePriorityChargingResponse"), ("VatNumberValidation", "VatNumberValidation"), ("VatNumberValidationResponse",
      "VatNumberValidationResponse")] }

/-- All of them. -/
def enums : List EnumTable :=
  [e_v2_GenericStatusEnum, e_v2_HashAlgorithmEnum, e_v2_AuthorizationStatusEnum, e_v2_MessageFormatEnum, e_v2_AuthorizeCertificateStatusEnum,
   e_v2_EnergyTransferModeEnum, e_v2_DayOfWeekEnum, e_v2_EvseKindEnum, e_v2_BatterySwapEventEnum, e_v2_BootReasonEnum, e_v2_RegistrationStatusEnum,
   e_v2_CancelReservationStatusEnum, e_v2_CertificateSigningUseEnum, e_v2_CertificateSignedStatusEnum, e_v2_OperationalStatusEnum,
   e_v2_ChangeAvailabilityStatusEnum, e_v2_TariffChangeStatusEnum, e_v2_ClearCacheStatusEnum, e_v2_ChargingProfilePurposeEnum,
   e_v2_ClearChargingProfileStatusEnum, e_v2_DERControlEnum, e_v2_DERControlStatusEnum, e_v2_ClearMessageStatusEnum, e_v2_TariffClearStatusEnum,
   e_v2_ClearMonitoringStatusEnum, e_v2_CustomerInformationStatusEnum, e_v2_DataTransferStatusEnum, e_v2_DeleteCertificateStatusEnum,
   e_v2_FirmwareStatusEnum, e_v2_CertificateActionEnum, e_v2_Iso15118EVCertificateStatusEnum, e_v2_ReportBaseEnum, e_v2_GenericDeviceModelStatusEnum,
   e_v2_CertificateStatusSourceEnum, e_v2_CertificateStatusEnum, e_v2_GetCertificateStatusEnum, e_v2_GetChargingProfileStatusEnum,
   e_v2_ChargingRateUnitEnum, e_v2_OperationModeEnum, e_v2_MessagePriorityEnum, e_v2_MessageStateEnum, e_v2_GetDisplayMessagesStatusEnum,
   e_v2_GetCertificateIdUseEnum, e_v2_GetInstalledCertificateStatusEnum, e_v2_LogEnum, e_v2_LogStatusEnum, e_v2_MonitoringCriterionEnum,
   e_v2_ComponentCriterionEnum, e_v2_TariffGetStatusEnum, e_v2_TariffKindEnum, e_v2_AttributeEnum, e_v2_GetVariableStatusEnum,
   e_v2_InstallCertificateUseEnum, e_v2_InstallCertificateStatusEnum, e_v2_UploadLogStatusEnum, e_v2_MeasurandEnum, e_v2_ReadingContextEnum,
   e_v2_PhaseEnum, e_v2_LocationEnum, e_v2_NotifyAllowedEnergyTransferStatusEnum, e_v2_CostKindEnum, e_v2_GridEventFaultEnum,
   e_v2_IslandingDetectionEnum, e_v2_ControlModeEnum, e_v2_MobilityNeedsModeEnum, e_v2_NotifyEVChargingNeedsStatusEnum, e_v2_EventTriggerEnum,
   e_v2_EventNotificationEnum, e_v2_MonitorEnum, e_v2_MutabilityEnum, e_v2_DataEnum, e_v2_PaymentStatusEnum, e_v2_PublishFirmwareStatusEnum,
   e_v2_ChargingProfileStatusEnum, e_v2_ChargingProfileKindEnum, e_v2_RecurrencyKindEnum, e_v2_PowerDuringCessationEnum, e_v2_DERUnitEnum,
   e_v2_RequestStartStopStatusEnum, e_v2_ReservationUpdateStatusEnum, e_v2_ReserveNowStatusEnum, e_v2_ResetEnum, e_v2_ResetStatusEnum,
   e_v2_UpdateEnum, e_v2_SendLocalListStatusEnum, e_v2_TariffSetStatusEnum, e_v2_DisplayMessageStatusEnum, e_v2_MonitoringBaseEnum,
   e_v2_APNAuthenticationEnum, e_v2_OCPPVersionEnum, e_v2_OCPPInterfaceEnum, e_v2_OCPPTransportEnum, e_v2_VPNEnum, e_v2_SetNetworkProfileStatusEnum,
   e_v2_SetMonitoringStatusEnum, e_v2_SetVariableStatusEnum, e_v2_ConnectorStatusEnum, e_v2_CostDimensionEnum, e_v2_TariffCostEnum,
   e_v2_TransactionEventEnum, e_v2_TriggerReasonEnum, e_v2_PreconditioningStatusEnum, e_v2_ChargingStateEnum, e_v2_ReasonEnum,
   e_v2_MessageTriggerEnum, e_v2_TriggerMessageStatusEnum, e_v2_UnlockStatusEnum, e_v2_UnpublishFirmwareStatusEnum, e_v2_UpdateFirmwareStatusEnum,
   e_v2_PriorityChargingStatusEnum, e_v16_AuthorizationStatus, e_v16_RegistrationStatus, e_v16_CancelReservationStatus,
   e_v16_CertificateSignedStatusEnumType, e_v16_AvailabilityType, e_v16_AvailabilityStatus, e_v16_ConfigurationStatus, e_v16_ClearCacheStatus,
   e_v16_ChargingProfilePurposeType, e_v16_ClearChargingProfileStatus, e_v16_DataTransferStatus, e_v16_HashAlgorithmEnumType,
   e_v16_DeleteCertificateStatusEnumType, e_v16_DiagnosticsStatus, e_v16_MessageTriggerEnumType, e_v16_TriggerMessageStatusEnumType,
   e_v16_FirmwareStatus, e_v16_ChargingRateUnit, e_v16_GetCompositeScheduleStatus, e_v16_CertificateUseEnumType,
   e_v16_GetInstalledCertificateStatusEnumType, e_v16_LogEnumType, e_v16_LogStatusEnumType, e_v16_InstallCertificateStatusEnumType,
   e_v16_UploadLogStatusEnumType, e_v16_ReadingContext, e_v16_ValueFormat, e_v16_Measurand, e_v16_Phase, e_v16_Location, e_v16_UnitOfMeasure,
   e_v16_ChargingProfileKindType, e_v16_RecurrencyKindType, e_v16_RemoteStartStopStatus, e_v16_ReservationStatus, e_v16_ResetType, e_v16_ResetStatus,
   e_v16_UpdateType, e_v16_UpdateStatus, e_v16_ChargingProfileStatus, e_v16_GenericStatusEnumType, e_v16_FirmwareStatusEnumType,
   e_v16_UpdateFirmwareStatusEnumType, e_v16_ChargePointErrorCode, e_v16_ChargePointStatus, e_v16_Reason, e_v16_MessageTrigger,
   e_v16_TriggerMessageStatus, e_v16_UnlockStatus, e_common_SessionStartedReason, e_common_RunningCostState, e_common_CaCertificateType,
   e_common_CertificateValidationResult, e_common_InstallCertificateResult, e_common_DeleteCertificateResult, e_common_HashAlgorithmEnumType,
   e_common_OcppProtocolVersion, e_common_CertificateSigningUseEnum, e_common_CertificateType, e_v16_MessageType, e_v16_SupportedFeatureProfiles,
   e_v16_ChargePointConnectionState, e_v2_MessageType]

end Verif.Wire
