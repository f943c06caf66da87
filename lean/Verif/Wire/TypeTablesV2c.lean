import Verif.Wire.TypeModel

/-!
Generated from the declarations and conversions of the structs of OCPP 2.0.1 and 2.1, by a script that reads the text of the cited files: the members
declared in the header ⟨name, optional, vector, type⟩, and the statements of `to_json` and of `from_json` ⟨key, member, under `if`, in a loop, conversion⟩.
-/

namespace Verif.Wire

/-- `GetLogRequest`, include/ocpp/v2/messages/GetLog.hpp l.19; `to_json`, lib/ocpp/v2/messages/GetLog.cpp l.20-37; `from_json`, l.39-55. -/
def t_v2_GetLogRequest : TypeTable :=
  { name := "v2.GetLogRequest",
    fields :=
      [⟨"log", false, false, .struct "v2.LogParameters"⟩,
       ⟨"logType", false, false, .enum "v2.LogEnum"⟩,
       ⟨"requestId", false, false, .int⟩,
       ⟨"retries", true, false, .int⟩,
       ⟨"retryInterval", true, false, .int⟩,
       ⟨"customData", true, false, .json⟩],
    toJ :=
      [⟨"log", "log", false, false, .plain⟩,
       ⟨"logType", "logType", false, false, (.enum "v2.LogEnum")⟩,
       ⟨"requestId", "requestId", false, false, .plain⟩,
       ⟨"retries", "retries", true, false, .plain⟩,
       ⟨"retryInterval", "retryInterval", true, false, .plain⟩,
       ⟨"customData", "customData", true, false, .plain⟩],
    fromJ :=
      [⟨"log", "log", false, false, .plain⟩,
       ⟨"logType", "logType", false, false, (.enum "v2.LogEnum")⟩,
       ⟨"requestId", "requestId", false, false, .plain⟩,
       ⟨"retries", "retries", true, false, .plain⟩,
       ⟨"retryInterval", "retryInterval", true, false, .plain⟩,
       ⟨"customData", "customData", true, false, .plain⟩] }

/-- `GetLogResponse`, include/ocpp/v2/messages/GetLog.hpp l.43; `to_json`, lib/ocpp/v2/messages/GetLog.cpp l.68-83; `from_json`, l.85-99. -/
def t_v2_GetLogResponse : TypeTable :=
  { name := "v2.GetLogResponse",
    fields :=
      [⟨"status", false, false, .enum "v2.LogStatusEnum"⟩,
       ⟨"statusInfo", true, false, .struct "v2.StatusInfo"⟩,
       ⟨"filename", true, false, .str (some 255)⟩,
       ⟨"customData", true, false, .json⟩],
    toJ :=
      [⟨"status", "status", false, false, (.enum "v2.LogStatusEnum")⟩,
       ⟨"statusInfo", "statusInfo", true, false, .plain⟩,
       ⟨"filename", "filename", true, false, .plain⟩,
       ⟨"customData", "customData", true, false, .plain⟩],
    fromJ :=
      [⟨"status", "status", false, false, (.enum "v2.LogStatusEnum")⟩,
       ⟨"statusInfo", "statusInfo", true, false, .plain⟩,
       ⟨"filename", "filename", true, false, .plain⟩,
       ⟨"customData", "customData", true, false, .plain⟩] }

/-- `GetMonitoringReportRequest`, include/ocpp/v2/messages/GetMonitoringReport.hpp l.19; `to_json`, lib/ocpp/v2/messages/GetMonitoringReport.cpp l.20-41; `from_json`, l.43-67. -/
def t_v2_GetMonitoringReportRequest : TypeTable :=
  { name := "v2.GetMonitoringReportRequest",
    fields :=
      [⟨"requestId", false, false, .int⟩,
       ⟨"componentVariable", true, true, .struct "v2.ComponentVariable"⟩,
       ⟨"monitoringCriteria", true, true, .enum "v2.MonitoringCriterionEnum"⟩,
       ⟨"customData", true, false, .json⟩],
    toJ :=
      [⟨"requestId", "requestId", false, false, .plain⟩,
       ⟨"componentVariable", "componentVariable", true, true, .plain⟩,
       ⟨"monitoringCriteria", "monitoringCriteria", true, true, (.enum "v2.MonitoringCriterionEnum")⟩,
       ⟨"customData", "customData", true, false, .plain⟩],
    fromJ :=
      [⟨"requestId", "requestId", false, false, .plain⟩,
       ⟨"componentVariable", "componentVariable", true, true, .plain⟩,
       ⟨"monitoringCriteria", "monitoringCriteria", true, true, (.enum "v2.MonitoringCriterionEnum")⟩,
       ⟨"customData", "customData", true, false, .plain⟩] }

/-- `GetMonitoringReportResponse`, include/ocpp/v2/messages/GetMonitoringReport.hpp l.42; `to_json`, lib/ocpp/v2/messages/GetMonitoringReport.cpp l.81-93; `from_json`, l.95-106. -/
def t_v2_GetMonitoringReportResponse : TypeTable :=
  { name := "v2.GetMonitoringReportResponse",
    fields :=
      [⟨"status", false, false, .enum "v2.GenericDeviceModelStatusEnum"⟩,
       ⟨"statusInfo", true, false, .struct "v2.StatusInfo"⟩,
       ⟨"customData", true, false, .json⟩],
    toJ :=
      [⟨"status", "status", false, false, (.enum "v2.GenericDeviceModelStatusEnum")⟩,
       ⟨"statusInfo", "statusInfo", true, false, .plain⟩,
       ⟨"customData", "customData", true, false, .plain⟩],
    fromJ :=
      [⟨"status", "status", false, false, (.enum "v2.GenericDeviceModelStatusEnum")⟩,
       ⟨"statusInfo", "statusInfo", true, false, .plain⟩,
       ⟨"customData", "customData", true, false, .plain⟩] }

/-- `GetReportRequest`, include/ocpp/v2/messages/GetReport.hpp l.19; `to_json`, lib/ocpp/v2/messages/GetReport.cpp l.20-41; `from_json`, l.43-67. -/
def t_v2_GetReportRequest : TypeTable :=
  { name := "v2.GetReportRequest",
    fields :=
      [⟨"requestId", false, false, .int⟩,
       ⟨"componentVariable", true, true, .struct "v2.ComponentVariable"⟩,
       ⟨"componentCriteria", true, true, .enum "v2.ComponentCriterionEnum"⟩,
       ⟨"customData", true, false, .json⟩],
    toJ :=
      [⟨"requestId", "requestId", false, false, .plain⟩,
       ⟨"componentVariable", "componentVariable", true, true, .plain⟩,
       ⟨"componentCriteria", "componentCriteria", true, true, (.enum "v2.ComponentCriterionEnum")⟩,
       ⟨"customData", "customData", true, false, .plain⟩],
    fromJ :=
      [⟨"requestId", "requestId", false, false, .plain⟩,
       ⟨"componentVariable", "componentVariable", true, true, .plain⟩,
       ⟨"componentCriteria", "componentCriteria", true, true, (.enum "v2.ComponentCriterionEnum")⟩,
       ⟨"customData", "customData", true, false, .plain⟩] }

/-- `GetReportResponse`, include/ocpp/v2/messages/GetReport.hpp l.41; `to_json`, lib/ocpp/v2/messages/GetReport.cpp l.80-92; `from_json`, l.94-105. -/
def t_v2_GetReportResponse : TypeTable :=
  { name := "v2.GetReportResponse",
    fields :=
      [⟨"status", false, false, .enum "v2.GenericDeviceModelStatusEnum"⟩,
       ⟨"statusInfo", true, false, .struct "v2.StatusInfo"⟩,
       ⟨"customData", true, false, .json⟩],
    toJ :=
      [⟨"status", "status", false, false, (.enum "v2.GenericDeviceModelStatusEnum")⟩,
       ⟨"statusInfo", "statusInfo", true, false, .plain⟩,
       ⟨"customData", "customData", true, false, .plain⟩],
    fromJ :=
      [⟨"status", "status", false, false, (.enum "v2.GenericDeviceModelStatusEnum")⟩,
       ⟨"statusInfo", "statusInfo", true, false, .plain⟩,
       ⟨"customData", "customData", true, false, .plain⟩] }

/-- `GetTransactionStatusRequest`, include/ocpp/v2/messages/GetTransactionStatus.hpp l.18; `to_json`, lib/ocpp/v2/messages/GetTransactionStatus.cpp l.20-30; `from_json`, l.32-42. -/
def t_v2_GetTransactionStatusRequest : TypeTable :=
  { name := "v2.GetTransactionStatusRequest",
    fields :=
      [⟨"transactionId", true, false, .str (some 36)⟩,
       ⟨"customData", true, false, .json⟩],
    toJ :=
      [⟨"transactionId", "transactionId", true, false, .plain⟩,
       ⟨"customData", "customData", true, false, .plain⟩],
    fromJ :=
      [⟨"transactionId", "transactionId", true, false, .plain⟩,
       ⟨"customData", "customData", true, false, .plain⟩] }

/-- `GetTransactionStatusResponse`, include/ocpp/v2/messages/GetTransactionStatus.hpp l.39; `to_json`, lib/ocpp/v2/messages/GetTransactionStatus.cpp l.56-68; `from_json`, l.70-81. -/
def t_v2_GetTransactionStatusResponse : TypeTable :=
  { name := "v2.GetTransactionStatusResponse",
    fields :=
      [⟨"messagesInQueue", false, false, .bool⟩,
       ⟨"ongoingIndicator", true, false, .bool⟩,
       ⟨"customData", true, false, .json⟩],
    toJ :=
      [⟨"messagesInQueue", "messagesInQueue", false, false, .plain⟩,
       ⟨"ongoingIndicator", "ongoingIndicator", true, false, .plain⟩,
       ⟨"customData", "customData", true, false, .plain⟩],
    fromJ :=
      [⟨"messagesInQueue", "messagesInQueue", false, false, .plain⟩,
       ⟨"ongoingIndicator", "ongoingIndicator", true, false, .plain⟩,
       ⟨"customData", "customData", true, false, .plain⟩] }

/-- `GetVariablesRequest`, include/ocpp/v2/messages/GetVariables.hpp l.19; `to_json`, lib/ocpp/v2/messages/GetVariables.cpp l.20-29; `from_json`, l.31-41. -/
def t_v2_GetVariablesRequest : TypeTable :=
  { name := "v2.GetVariablesRequest",
    fields :=
      [⟨"getVariableData", false, true, .struct "v2.GetVariableData"⟩,
       ⟨"customData", true, false, .json⟩],
    toJ :=
      [⟨"getVariableData", "getVariableData", false, false, .plain⟩,
       ⟨"customData", "customData", true, false, .plain⟩],
    fromJ :=
      [⟨"getVariableData", "getVariableData", false, true, .plain⟩,
       ⟨"customData", "customData", true, false, .plain⟩] }

/-- `GetVariablesResponse`, include/ocpp/v2/messages/GetVariables.hpp l.39; `to_json`, lib/ocpp/v2/messages/GetVariables.cpp l.54-63; `from_json`, l.65-75. -/
def t_v2_GetVariablesResponse : TypeTable :=
  { name := "v2.GetVariablesResponse",
    fields :=
      [⟨"getVariableResult", false, true, .struct "v2.GetVariableResult"⟩,
       ⟨"customData", true, false, .json⟩],
    toJ :=
      [⟨"getVariableResult", "getVariableResult", false, false, .plain⟩,
       ⟨"customData", "customData", true, false, .plain⟩],
    fromJ :=
      [⟨"getVariableResult", "getVariableResult", false, true, .plain⟩,
       ⟨"customData", "customData", true, false, .plain⟩] }

/-- `HeartbeatRequest`, include/ocpp/v2/messages/Heartbeat.hpp l.18; `to_json`, lib/ocpp/v2/messages/Heartbeat.cpp l.20-27; `from_json`, l.29-36. -/
def t_v2_HeartbeatRequest : TypeTable :=
  { name := "v2.HeartbeatRequest",
    fields :=
      [⟨"customData", true, false, .json⟩],
    toJ :=
      [⟨"customData", "customData", true, false, .plain⟩],
    fromJ :=
      [⟨"customData", "customData", true, false, .plain⟩] }

/-- `HeartbeatResponse`, include/ocpp/v2/messages/Heartbeat.hpp l.37; `to_json`, lib/ocpp/v2/messages/Heartbeat.cpp l.49-58; `from_json`, l.60-68. -/
def t_v2_HeartbeatResponse : TypeTable :=
  { name := "v2.HeartbeatResponse",
    fields :=
      [⟨"currentTime", false, false, .time⟩,
       ⟨"customData", true, false, .json⟩],
    toJ :=
      [⟨"currentTime", "currentTime", false, false, .time⟩,
       ⟨"customData", "customData", true, false, .plain⟩],
    fromJ :=
      [⟨"currentTime", "currentTime", false, false, .time⟩,
       ⟨"customData", "customData", true, false, .plain⟩] }

/-- `InstallCertificateRequest`, include/ocpp/v2/messages/InstallCertificate.hpp l.19; `to_json`, lib/ocpp/v2/messages/InstallCertificate.cpp l.20-30; `from_json`, l.32-41. -/
def t_v2_InstallCertificateRequest : TypeTable :=
  { name := "v2.InstallCertificateRequest",
    fields :=
      [⟨"certificateType", false, false, .enum "v2.InstallCertificateUseEnum"⟩,
       ⟨"certificate", false, false, .str (some 10000)⟩,
       ⟨"customData", true, false, .json⟩],
    toJ :=
      [⟨"certificateType", "certificateType", false, false, (.enum "v2.InstallCertificateUseEnum")⟩,
       ⟨"certificate", "certificate", false, false, .plain⟩,
       ⟨"customData", "customData", true, false, .plain⟩],
    fromJ :=
      [⟨"certificateType", "certificateType", false, false, (.enum "v2.InstallCertificateUseEnum")⟩,
       ⟨"certificate", "certificate", false, false, .plain⟩,
       ⟨"customData", "customData", true, false, .plain⟩] }

/-- `InstallCertificateResponse`, include/ocpp/v2/messages/InstallCertificate.hpp l.40; `to_json`, lib/ocpp/v2/messages/InstallCertificate.cpp l.54-66; `from_json`, l.68-79. -/
def t_v2_InstallCertificateResponse : TypeTable :=
  { name := "v2.InstallCertificateResponse",
    fields :=
      [⟨"status", false, false, .enum "v2.InstallCertificateStatusEnum"⟩,
       ⟨"statusInfo", true, false, .struct "v2.StatusInfo"⟩,
       ⟨"customData", true, false, .json⟩],
    toJ :=
      [⟨"status", "status", false, false, (.enum "v2.InstallCertificateStatusEnum")⟩,
       ⟨"statusInfo", "statusInfo", true, false, .plain⟩,
       ⟨"customData", "customData", true, false, .plain⟩],
    fromJ :=
      [⟨"status", "status", false, false, (.enum "v2.InstallCertificateStatusEnum")⟩,
       ⟨"statusInfo", "statusInfo", true, false, .plain⟩,
       ⟨"customData", "customData", true, false, .plain⟩] }

/-- `LogStatusNotificationRequest`, include/ocpp/v2/messages/LogStatusNotification.hpp l.19; `to_json`, lib/ocpp/v2/messages/LogStatusNotification.cpp l.20-35; `from_json`, l.37-51. -/
def t_v2_LogStatusNotificationRequest : TypeTable :=
  { name := "v2.LogStatusNotificationRequest",
    fields :=
      [⟨"status", false, false, .enum "v2.UploadLogStatusEnum"⟩,
       ⟨"requestId", true, false, .int⟩,
       ⟨"statusInfo", true, false, .struct "v2.StatusInfo"⟩,
       ⟨"customData", true, false, .json⟩],
    toJ :=
      [⟨"status", "status", false, false, (.enum "v2.UploadLogStatusEnum")⟩,
       ⟨"requestId", "requestId", true, false, .plain⟩,
       ⟨"statusInfo", "statusInfo", true, false, .plain⟩,
       ⟨"customData", "customData", true, false, .plain⟩],
    fromJ :=
      [⟨"status", "status", false, false, (.enum "v2.UploadLogStatusEnum")⟩,
       ⟨"requestId", "requestId", true, false, .plain⟩,
       ⟨"statusInfo", "statusInfo", true, false, .plain⟩,
       ⟨"customData", "customData", true, false, .plain⟩] }

/-- `LogStatusNotificationResponse`, include/ocpp/v2/messages/LogStatusNotification.hpp l.42; `to_json`, lib/ocpp/v2/messages/LogStatusNotification.cpp l.65-72; `from_json`, l.74-81. -/
def t_v2_LogStatusNotificationResponse : TypeTable :=
  { name := "v2.LogStatusNotificationResponse",
    fields :=
      [⟨"customData", true, false, .json⟩],
    toJ :=
      [⟨"customData", "customData", true, false, .plain⟩],
    fromJ :=
      [⟨"customData", "customData", true, false, .plain⟩] }

/-- `MeterValuesRequest`, include/ocpp/v2/messages/MeterValues.hpp l.19; `to_json`, lib/ocpp/v2/messages/MeterValues.cpp l.20-30; `from_json`, l.32-43. -/
def t_v2_MeterValuesRequest : TypeTable :=
  { name := "v2.MeterValuesRequest",
    fields :=
      [⟨"evseId", false, false, .int⟩,
       ⟨"meterValue", false, true, .struct "v2.MeterValue"⟩,
       ⟨"customData", true, false, .json⟩],
    toJ :=
      [⟨"evseId", "evseId", false, false, .plain⟩,
       ⟨"meterValue", "meterValue", false, false, .plain⟩,
       ⟨"customData", "customData", true, false, .plain⟩],
    fromJ :=
      [⟨"evseId", "evseId", false, false, .plain⟩,
       ⟨"meterValue", "meterValue", false, true, .plain⟩,
       ⟨"customData", "customData", true, false, .plain⟩] }

/-- `MeterValuesResponse`, include/ocpp/v2/messages/MeterValues.hpp l.40; `to_json`, lib/ocpp/v2/messages/MeterValues.cpp l.56-63; `from_json`, l.65-72. -/
def t_v2_MeterValuesResponse : TypeTable :=
  { name := "v2.MeterValuesResponse",
    fields :=
      [⟨"customData", true, false, .json⟩],
    toJ :=
      [⟨"customData", "customData", true, false, .plain⟩],
    fromJ :=
      [⟨"customData", "customData", true, false, .plain⟩] }

/-- `NotifyChargingLimitRequest`, include/ocpp/v2/messages/NotifyChargingLimit.hpp l.19; `to_json`, lib/ocpp/v2/messages/NotifyChargingLimit.cpp l.20-38; `from_json`, l.40-59. -/
def t_v2_NotifyChargingLimitRequest : TypeTable :=
  { name := "v2.NotifyChargingLimitRequest",
    fields :=
      [⟨"chargingLimit", false, false, .struct "v2.ChargingLimit"⟩,
       ⟨"chargingSchedule", true, true, .struct "v2.ChargingSchedule"⟩,
       ⟨"evseId", true, false, .int⟩,
       ⟨"customData", true, false, .json⟩],
    toJ :=
      [⟨"chargingLimit", "chargingLimit", false, false, .plain⟩,
       ⟨"chargingSchedule", "chargingSchedule", true, true, .plain⟩,
       ⟨"evseId", "evseId", true, false, .plain⟩,
       ⟨"customData", "customData", true, false, .plain⟩],
    fromJ :=
      [⟨"chargingLimit", "chargingLimit", false, false, .plain⟩,
       ⟨"chargingSchedule", "chargingSchedule", true, true, .plain⟩,
       ⟨"evseId", "evseId", true, false, .plain⟩,
       ⟨"customData", "customData", true, false, .plain⟩] }

/-- `NotifyChargingLimitResponse`, include/ocpp/v2/messages/NotifyChargingLimit.hpp l.42; `to_json`, lib/ocpp/v2/messages/NotifyChargingLimit.cpp l.73-80; `from_json`, l.82-89. -/
def t_v2_NotifyChargingLimitResponse : TypeTable :=
  { name := "v2.NotifyChargingLimitResponse",
    fields :=
      [⟨"customData", true, false, .json⟩],
    toJ :=
      [⟨"customData", "customData", true, false, .plain⟩],
    fromJ :=
      [⟨"customData", "customData", true, false, .plain⟩] }

/-- `NotifyCustomerInformationRequest`, include/ocpp/v2/messages/NotifyCustomerInformation.hpp l.18; `to_json`, lib/ocpp/v2/messages/NotifyCustomerInformation.cpp l.20-35; `from_json`, l.37-51. -/
def t_v2_NotifyCustomerInformationRequest : TypeTable :=
  { name := "v2.NotifyCustomerInformationRequest",
    fields :=
      [⟨"data", false, false, .str (some 512)⟩,
       ⟨"seqNo", false, false, .int⟩,
       ⟨"generatedAt", false, false, .time⟩,
       ⟨"requestId", false, false, .int⟩,
       ⟨"tbc", true, false, .bool⟩,
       ⟨"customData", true, false, .json⟩],
    toJ :=
      [⟨"data", "data", false, false, .plain⟩,
       ⟨"seqNo", "seqNo", false, false, .plain⟩,
       ⟨"generatedAt", "generatedAt", false, false, .time⟩,
       ⟨"requestId", "requestId", false, false, .plain⟩,
       ⟨"tbc", "tbc", true, false, .plain⟩,
       ⟨"customData", "customData", true, false, .plain⟩],
    fromJ :=
      [⟨"data", "data", false, false, .plain⟩,
       ⟨"seqNo", "seqNo", false, false, .plain⟩,
       ⟨"generatedAt", "generatedAt", false, false, .time⟩,
       ⟨"requestId", "requestId", false, false, .plain⟩,
       ⟨"tbc", "tbc", true, false, .plain⟩,
       ⟨"customData", "customData", true, false, .plain⟩] }

/-- `NotifyCustomerInformationResponse`, include/ocpp/v2/messages/NotifyCustomerInformation.hpp l.43; `to_json`, lib/ocpp/v2/messages/NotifyCustomerInformation.cpp l.65-72; `from_json`, l.74-81. -/
def t_v2_NotifyCustomerInformationResponse : TypeTable :=
  { name := "v2.NotifyCustomerInformationResponse",
    fields :=
      [⟨"customData", true, false, .json⟩],
    toJ :=
      [⟨"customData", "customData", true, false, .plain⟩],
    fromJ :=
      [⟨"customData", "customData", true, false, .plain⟩] }

/-- `NotifyDisplayMessagesRequest`, include/ocpp/v2/messages/NotifyDisplayMessages.hpp l.19; `to_json`, lib/ocpp/v2/messages/NotifyDisplayMessages.cpp l.20-38; `from_json`, l.40-59. -/
def t_v2_NotifyDisplayMessagesRequest : TypeTable :=
  { name := "v2.NotifyDisplayMessagesRequest",
    fields :=
      [⟨"requestId", false, false, .int⟩,
       ⟨"messageInfo", true, true, .struct "v2.MessageInfo"⟩,
       ⟨"tbc", true, false, .bool⟩,
       ⟨"customData", true, false, .json⟩],
    toJ :=
      [⟨"requestId", "requestId", false, false, .plain⟩,
       ⟨"messageInfo", "messageInfo", true, true, .plain⟩,
       ⟨"tbc", "tbc", true, false, .plain⟩,
       ⟨"customData", "customData", true, false, .plain⟩],
    fromJ :=
      [⟨"requestId", "requestId", false, false, .plain⟩,
       ⟨"messageInfo", "messageInfo", true, true, .plain⟩,
       ⟨"tbc", "tbc", true, false, .plain⟩,
       ⟨"customData", "customData", true, false, .plain⟩] }

/-- `NotifyDisplayMessagesResponse`, include/ocpp/v2/messages/NotifyDisplayMessages.hpp l.42; `to_json`, lib/ocpp/v2/messages/NotifyDisplayMessages.cpp l.73-80; `from_json`, l.82-89. -/
def t_v2_NotifyDisplayMessagesResponse : TypeTable :=
  { name := "v2.NotifyDisplayMessagesResponse",
    fields :=
      [⟨"customData", true, false, .json⟩],
    toJ :=
      [⟨"customData", "customData", true, false, .plain⟩],
    fromJ :=
      [⟨"customData", "customData", true, false, .plain⟩] }

/-- `NotifyEVChargingNeedsRequest`, include/ocpp/v2/messages/NotifyEVChargingNeeds.hpp l.19; `to_json`, lib/ocpp/v2/messages/NotifyEVChargingNeeds.cpp l.20-36; `from_json`, l.38-53. -/
def t_v2_NotifyEVChargingNeedsRequest : TypeTable :=
  { name := "v2.NotifyEVChargingNeedsRequest",
    fields :=
      [⟨"evseId", false, false, .int⟩,
       ⟨"chargingNeeds", false, false, .struct "v2.ChargingNeeds"⟩,
       ⟨"maxScheduleTuples", true, false, .int⟩,
       ⟨"timestamp", true, false, .time⟩,
       ⟨"customData", true, false, .json⟩],
    toJ :=
      [⟨"evseId", "evseId", false, false, .plain⟩,
       ⟨"chargingNeeds", "chargingNeeds", false, false, .plain⟩,
       ⟨"maxScheduleTuples", "maxScheduleTuples", true, false, .plain⟩,
       ⟨"timestamp", "timestamp", true, false, .time⟩,
       ⟨"customData", "customData", true, false, .plain⟩],
    fromJ :=
      [⟨"evseId", "evseId", false, false, .plain⟩,
       ⟨"chargingNeeds", "chargingNeeds", false, false, .plain⟩,
       ⟨"maxScheduleTuples", "maxScheduleTuples", true, false, .plain⟩,
       ⟨"timestamp", "timestamp", true, false, .time⟩,
       ⟨"customData", "customData", true, false, .plain⟩] }

/-- `NotifyEVChargingNeedsResponse`, include/ocpp/v2/messages/NotifyEVChargingNeeds.hpp l.43; `to_json`, lib/ocpp/v2/messages/NotifyEVChargingNeeds.cpp l.67-79; `from_json`, l.81-92. -/
def t_v2_NotifyEVChargingNeedsResponse : TypeTable :=
  { name := "v2.NotifyEVChargingNeedsResponse",
    fields :=
      [⟨"status", false, false, .enum "v2.NotifyEVChargingNeedsStatusEnum"⟩,
       ⟨"statusInfo", true, false, .struct "v2.StatusInfo"⟩,
       ⟨"customData", true, false, .json⟩],
    toJ :=
      [⟨"status", "status", false, false, (.enum "v2.NotifyEVChargingNeedsStatusEnum")⟩,
       ⟨"statusInfo", "statusInfo", true, false, .plain⟩,
       ⟨"customData", "customData", true, false, .plain⟩],
    fromJ :=
      [⟨"status", "status", false, false, (.enum "v2.NotifyEVChargingNeedsStatusEnum")⟩,
       ⟨"statusInfo", "statusInfo", true, false, .plain⟩,
       ⟨"customData", "customData", true, false, .plain⟩] }

/-- `NotifyEVChargingScheduleRequest`, include/ocpp/v2/messages/NotifyEVChargingSchedule.hpp l.19; `to_json`, lib/ocpp/v2/messages/NotifyEVChargingSchedule.cpp l.20-37; `from_json`, l.39-55. -/
def t_v2_NotifyEVChargingScheduleRequest : TypeTable :=
  { name := "v2.NotifyEVChargingScheduleRequest",
    fields :=
      [⟨"timeBase", false, false, .time⟩,
       ⟨"chargingSchedule", false, false, .struct "v2.ChargingSchedule"⟩,
       ⟨"evseId", false, false, .int⟩,
       ⟨"selectedChargingScheduleId", true, false, .int⟩,
       ⟨"powerToleranceAcceptance", true, false, .bool⟩,
       ⟨"customData", true, false, .json⟩],
    toJ :=
      [⟨"timeBase", "timeBase", false, false, .time⟩,
       ⟨"chargingSchedule", "chargingSchedule", false, false, .plain⟩,
       ⟨"evseId", "evseId", false, false, .plain⟩,
       ⟨"selectedChargingScheduleId", "selectedChargingScheduleId", true, false, .plain⟩,
       ⟨"powerToleranceAcceptance", "powerToleranceAcceptance", true, false, .plain⟩,
       ⟨"customData", "customData", true, false, .plain⟩],
    fromJ :=
      [⟨"timeBase", "timeBase", false, false, .time⟩,
       ⟨"chargingSchedule", "chargingSchedule", false, false, .plain⟩,
       ⟨"evseId", "evseId", false, false, .plain⟩,
       ⟨"selectedChargingScheduleId", "selectedChargingScheduleId", true, false, .plain⟩,
       ⟨"powerToleranceAcceptance", "powerToleranceAcceptance", true, false, .plain⟩,
       ⟨"customData", "customData", true, false, .plain⟩] }

/-- `NotifyEVChargingScheduleResponse`, include/ocpp/v2/messages/NotifyEVChargingSchedule.hpp l.44; `to_json`, lib/ocpp/v2/messages/NotifyEVChargingSchedule.cpp l.69-81; `from_json`, l.83-94. -/
def t_v2_NotifyEVChargingScheduleResponse : TypeTable :=
  { name := "v2.NotifyEVChargingScheduleResponse",
    fields :=
      [⟨"status", false, false, .enum "v2.GenericStatusEnum"⟩,
       ⟨"statusInfo", true, false, .struct "v2.StatusInfo"⟩,
       ⟨"customData", true, false, .json⟩],
    toJ :=
      [⟨"status", "status", false, false, (.enum "v2.GenericStatusEnum")⟩,
       ⟨"statusInfo", "statusInfo", true, false, .plain⟩,
       ⟨"customData", "customData", true, false, .plain⟩],
    fromJ :=
      [⟨"status", "status", false, false, (.enum "v2.GenericStatusEnum")⟩,
       ⟨"statusInfo", "statusInfo", true, false, .plain⟩,
       ⟨"customData", "customData", true, false, .plain⟩] }

/-- `NotifyEventRequest`, include/ocpp/v2/messages/NotifyEvent.hpp l.19; `to_json`, lib/ocpp/v2/messages/NotifyEvent.cpp l.20-34; `from_json`, l.36-51. -/
def t_v2_NotifyEventRequest : TypeTable :=
  { name := "v2.NotifyEventRequest",
    fields :=
      [⟨"generatedAt", false, false, .time⟩,
       ⟨"seqNo", false, false, .int⟩,
       ⟨"eventData", false, true, .struct "v2.EventData"⟩,
       ⟨"tbc", true, false, .bool⟩,
       ⟨"customData", true, false, .json⟩],
    toJ :=
      [⟨"generatedAt", "generatedAt", false, false, .time⟩,
       ⟨"seqNo", "seqNo", false, false, .plain⟩,
       ⟨"eventData", "eventData", false, false, .plain⟩,
       ⟨"tbc", "tbc", true, false, .plain⟩,
       ⟨"customData", "customData", true, false, .plain⟩],
    fromJ :=
      [⟨"generatedAt", "generatedAt", false, false, .time⟩,
       ⟨"seqNo", "seqNo", false, false, .plain⟩,
       ⟨"eventData", "eventData", false, true, .plain⟩,
       ⟨"tbc", "tbc", true, false, .plain⟩,
       ⟨"customData", "customData", true, false, .plain⟩] }

/-- `NotifyEventResponse`, include/ocpp/v2/messages/NotifyEvent.hpp l.42; `to_json`, lib/ocpp/v2/messages/NotifyEvent.cpp l.64-71; `from_json`, l.73-80. -/
def t_v2_NotifyEventResponse : TypeTable :=
  { name := "v2.NotifyEventResponse",
    fields :=
      [⟨"customData", true, false, .json⟩],
    toJ :=
      [⟨"customData", "customData", true, false, .plain⟩],
    fromJ :=
      [⟨"customData", "customData", true, false, .plain⟩] }

/-- `NotifyMonitoringReportRequest`, include/ocpp/v2/messages/NotifyMonitoringReport.hpp l.19; `to_json`, lib/ocpp/v2/messages/NotifyMonitoringReport.cpp l.20-40; `from_json`, l.42-63. -/
def t_v2_NotifyMonitoringReportRequest : TypeTable :=
  { name := "v2.NotifyMonitoringReportRequest",
    fields :=
      [⟨"requestId", false, false, .int⟩,
       ⟨"seqNo", false, false, .int⟩,
       ⟨"generatedAt", false, false, .time⟩,
       ⟨"monitor", true, true, .struct "v2.MonitoringData"⟩,
       ⟨"tbc", true, false, .bool⟩,
       ⟨"customData", true, false, .json⟩],
    toJ :=
      [⟨"requestId", "requestId", false, false, .plain⟩,
       ⟨"seqNo", "seqNo", false, false, .plain⟩,
       ⟨"generatedAt", "generatedAt", false, false, .time⟩,
       ⟨"monitor", "monitor", true, true, .plain⟩,
       ⟨"tbc", "tbc", true, false, .plain⟩,
       ⟨"customData", "customData", true, false, .plain⟩],
    fromJ :=
      [⟨"requestId", "requestId", false, false, .plain⟩,
       ⟨"seqNo", "seqNo", false, false, .plain⟩,
       ⟨"generatedAt", "generatedAt", false, false, .time⟩,
       ⟨"monitor", "monitor", true, true, .plain⟩,
       ⟨"tbc", "tbc", true, false, .plain⟩,
       ⟨"customData", "customData", true, false, .plain⟩] }

/-- `NotifyMonitoringReportResponse`, include/ocpp/v2/messages/NotifyMonitoringReport.hpp l.44; `to_json`, lib/ocpp/v2/messages/NotifyMonitoringReport.cpp l.77-84; `from_json`, l.86-93. -/
def t_v2_NotifyMonitoringReportResponse : TypeTable :=
  { name := "v2.NotifyMonitoringReportResponse",
    fields :=
      [⟨"customData", true, false, .json⟩],
    toJ :=
      [⟨"customData", "customData", true, false, .plain⟩],
    fromJ :=
      [⟨"customData", "customData", true, false, .plain⟩] }

/-- `NotifyReportRequest`, include/ocpp/v2/messages/NotifyReport.hpp l.19; `to_json`, lib/ocpp/v2/messages/NotifyReport.cpp l.20-40; `from_json`, l.42-63. -/
def t_v2_NotifyReportRequest : TypeTable :=
  { name := "v2.NotifyReportRequest",
    fields :=
      [⟨"requestId", false, false, .int⟩,
       ⟨"generatedAt", false, false, .time⟩,
       ⟨"seqNo", false, false, .int⟩,
       ⟨"reportData", true, true, .struct "v2.ReportData"⟩,
       ⟨"tbc", true, false, .bool⟩,
       ⟨"customData", true, false, .json⟩],
    toJ :=
      [⟨"requestId", "requestId", false, false, .plain⟩,
       ⟨"generatedAt", "generatedAt", false, false, .time⟩,
       ⟨"seqNo", "seqNo", false, false, .plain⟩,
       ⟨"reportData", "reportData", true, true, .plain⟩,
       ⟨"tbc", "tbc", true, false, .plain⟩,
       ⟨"customData", "customData", true, false, .plain⟩],
    fromJ :=
      [⟨"requestId", "requestId", false, false, .plain⟩,
       ⟨"generatedAt", "generatedAt", false, false, .time⟩,
       ⟨"seqNo", "seqNo", false, false, .plain⟩,
       ⟨"reportData", "reportData", true, true, .plain⟩,
       ⟨"tbc", "tbc", true, false, .plain⟩,
       ⟨"customData", "customData", true, false, .plain⟩] }

/-- `NotifyReportResponse`, include/ocpp/v2/messages/NotifyReport.hpp l.43; `to_json`, lib/ocpp/v2/messages/NotifyReport.cpp l.76-83; `from_json`, l.85-92. -/
def t_v2_NotifyReportResponse : TypeTable :=
  { name := "v2.NotifyReportResponse",
    fields :=
      [⟨"customData", true, false, .json⟩],
    toJ :=
      [⟨"customData", "customData", true, false, .plain⟩],
    fromJ :=
      [⟨"customData", "customData", true, false, .plain⟩] }

/-- `PublishFirmwareRequest`, include/ocpp/v2/messages/PublishFirmware.hpp l.19; `to_json`, lib/ocpp/v2/messages/PublishFirmware.cpp l.20-37; `from_json`, l.39-55. -/
def t_v2_PublishFirmwareRequest : TypeTable :=
  { name := "v2.PublishFirmwareRequest",
    fields :=
      [⟨"location", false, false, .str (some 2000)⟩,
       ⟨"checksum", false, false, .str (some 32)⟩,
       ⟨"requestId", false, false, .int⟩,
       ⟨"retries", true, false, .int⟩,
       ⟨"retryInterval", true, false, .int⟩,
       ⟨"customData", true, false, .json⟩],
    toJ :=
      [⟨"location", "location", false, false, .plain⟩,
       ⟨"checksum", "checksum", false, false, .plain⟩,
       ⟨"requestId", "requestId", false, false, .plain⟩,
       ⟨"retries", "retries", true, false, .plain⟩,
       ⟨"retryInterval", "retryInterval", true, false, .plain⟩,
       ⟨"customData", "customData", true, false, .plain⟩],
    fromJ :=
      [⟨"location", "location", false, false, .plain⟩,
       ⟨"checksum", "checksum", false, false, .plain⟩,
       ⟨"requestId", "requestId", false, false, .plain⟩,
       ⟨"retries", "retries", true, false, .plain⟩,
       ⟨"retryInterval", "retryInterval", true, false, .plain⟩,
       ⟨"customData", "customData", true, false, .plain⟩] }

/-- `PublishFirmwareResponse`, include/ocpp/v2/messages/PublishFirmware.hpp l.43; `to_json`, lib/ocpp/v2/messages/PublishFirmware.cpp l.68-80; `from_json`, l.82-93. -/
def t_v2_PublishFirmwareResponse : TypeTable :=
  { name := "v2.PublishFirmwareResponse",
    fields :=
      [⟨"status", false, false, .enum "v2.GenericStatusEnum"⟩,
       ⟨"statusInfo", true, false, .struct "v2.StatusInfo"⟩,
       ⟨"customData", true, false, .json⟩],
    toJ :=
      [⟨"status", "status", false, false, (.enum "v2.GenericStatusEnum")⟩,
       ⟨"statusInfo", "statusInfo", true, false, .plain⟩,
       ⟨"customData", "customData", true, false, .plain⟩],
    fromJ :=
      [⟨"status", "status", false, false, (.enum "v2.GenericStatusEnum")⟩,
       ⟨"statusInfo", "statusInfo", true, false, .plain⟩,
       ⟨"customData", "customData", true, false, .plain⟩] }

/-- `PublishFirmwareStatusNotificationRequest`, include/ocpp/v2/messages/PublishFirmwareStatusNotification.hpp l.19; `to_json`, lib/ocpp/v2/messages/PublishFirmwareStatusNotification.cpp l.20-41; `from_json`, l.43-65. -/
def t_v2_PublishFirmwareStatusNotificationRequest : TypeTable :=
  { name := "v2.PublishFirmwareStatusNotificationRequest",
    fields :=
      [⟨"status", false, false, .enum "v2.PublishFirmwareStatusEnum"⟩,
       ⟨"location", true, true, .str (some 2000)⟩,
       ⟨"requestId", true, false, .int⟩,
       ⟨"statusInfo", true, false, .struct "v2.StatusInfo"⟩,
       ⟨"customData", true, false, .json⟩],
    toJ :=
      [⟨"status", "status", false, false, (.enum "v2.PublishFirmwareStatusEnum")⟩,
       ⟨"location", "location", true, true, .plain⟩,
       ⟨"requestId", "requestId", true, false, .plain⟩,
       ⟨"statusInfo", "statusInfo", true, false, .plain⟩,
       ⟨"customData", "customData", true, false, .plain⟩],
    fromJ :=
      [⟨"status", "status", false, false, (.enum "v2.PublishFirmwareStatusEnum")⟩,
       ⟨"location", "location", true, true, .plain⟩,
       ⟨"requestId", "requestId", true, false, .plain⟩,
       ⟨"statusInfo", "statusInfo", true, false, .plain⟩,
       ⟨"customData", "customData", true, false, .plain⟩] }

/-- `PublishFirmwareStatusNotificationResponse`, include/ocpp/v2/messages/PublishFirmwareStatusNotification.hpp l.43; `to_json`, lib/ocpp/v2/messages/PublishFirmwareStatusNotification.cpp l.79-86; `from_json`, l.88-95. -/
def t_v2_PublishFirmwareStatusNotificationResponse : TypeTable :=
  { name := "v2.PublishFirmwareStatusNotificationResponse",
    fields :=
      [⟨"customData", true, false, .json⟩],
    toJ :=
      [⟨"customData", "customData", true, false, .plain⟩],
    fromJ :=
      [⟨"customData", "customData", true, false, .plain⟩] }

/-- `ReportChargingProfilesRequest`, include/ocpp/v2/messages/ReportChargingProfiles.hpp l.19; `to_json`, lib/ocpp/v2/messages/ReportChargingProfiles.cpp l.20-35; `from_json`, l.37-53. -/
def t_v2_ReportChargingProfilesRequest : TypeTable :=
  { name := "v2.ReportChargingProfilesRequest",
    fields :=
      [⟨"requestId", false, false, .int⟩,
       ⟨"chargingLimitSource", false, false, .str (some 20)⟩,
       ⟨"chargingProfile", false, true, .struct "v2.ChargingProfile"⟩,
       ⟨"evseId", false, false, .int⟩,
       ⟨"tbc", true, false, .bool⟩,
       ⟨"customData", true, false, .json⟩],
    toJ :=
      [⟨"requestId", "requestId", false, false, .plain⟩,
       ⟨"chargingLimitSource", "chargingLimitSource", false, false, .plain⟩,
       ⟨"chargingProfile", "chargingProfile", false, false, .plain⟩,
       ⟨"evseId", "evseId", false, false, .plain⟩,
       ⟨"tbc", "tbc", true, false, .plain⟩,
       ⟨"customData", "customData", true, false, .plain⟩],
    fromJ :=
      [⟨"requestId", "requestId", false, false, .plain⟩,
       ⟨"chargingLimitSource", "chargingLimitSource", false, false, .plain⟩,
       ⟨"chargingProfile", "chargingProfile", false, true, .plain⟩,
       ⟨"evseId", "evseId", false, false, .plain⟩,
       ⟨"tbc", "tbc", true, false, .plain⟩,
       ⟨"customData", "customData", true, false, .plain⟩] }

/-- `ReportChargingProfilesResponse`, include/ocpp/v2/messages/ReportChargingProfiles.hpp l.44; `to_json`, lib/ocpp/v2/messages/ReportChargingProfiles.cpp l.67-74; `from_json`, l.76-83. -/
def t_v2_ReportChargingProfilesResponse : TypeTable :=
  { name := "v2.ReportChargingProfilesResponse",
    fields :=
      [⟨"customData", true, false, .json⟩],
    toJ :=
      [⟨"customData", "customData", true, false, .plain⟩],
    fromJ :=
      [⟨"customData", "customData", true, false, .plain⟩] }

/-- `RequestStartTransactionRequest`, include/ocpp/v2/messages/RequestStartTransaction.hpp l.19; `to_json`, lib/ocpp/v2/messages/RequestStartTransaction.cpp l.20-39; `from_json`, l.41-59. -/
def t_v2_RequestStartTransactionRequest : TypeTable :=
  { name := "v2.RequestStartTransactionRequest",
    fields :=
      [⟨"idToken", false, false, .struct "v2.IdToken"⟩,
       ⟨"remoteStartId", false, false, .int⟩,
       ⟨"evseId", true, false, .int⟩,
       ⟨"groupIdToken", true, false, .struct "v2.IdToken"⟩,
       ⟨"chargingProfile", true, false, .struct "v2.ChargingProfile"⟩,
       ⟨"customData", true, false, .json⟩],
    toJ :=
      [⟨"idToken", "idToken", false, false, .plain⟩,
       ⟨"remoteStartId", "remoteStartId", false, false, .plain⟩,
       ⟨"evseId", "evseId", true, false, .plain⟩,
       ⟨"groupIdToken", "groupIdToken", true, false, .plain⟩,
       ⟨"chargingProfile", "chargingProfile", true, false, .plain⟩,
       ⟨"customData", "customData", true, false, .plain⟩],
    fromJ :=
      [⟨"idToken", "idToken", false, false, .plain⟩,
       ⟨"remoteStartId", "remoteStartId", false, false, .plain⟩,
       ⟨"evseId", "evseId", true, false, .plain⟩,
       ⟨"groupIdToken", "groupIdToken", true, false, .plain⟩,
       ⟨"chargingProfile", "chargingProfile", true, false, .plain⟩,
       ⟨"customData", "customData", true, false, .plain⟩] }

/-- `RequestStartTransactionResponse`, include/ocpp/v2/messages/RequestStartTransaction.hpp l.44; `to_json`, lib/ocpp/v2/messages/RequestStartTransaction.cpp l.73-88; `from_json`, l.90-104. -/
def t_v2_RequestStartTransactionResponse : TypeTable :=
  { name := "v2.RequestStartTransactionResponse",
    fields :=
      [⟨"status", false, false, .enum "v2.RequestStartStopStatusEnum"⟩,
       ⟨"statusInfo", true, false, .struct "v2.StatusInfo"⟩,
       ⟨"transactionId", true, false, .str (some 36)⟩,
       ⟨"customData", true, false, .json⟩],
    toJ :=
      [⟨"status", "status", false, false, (.enum "v2.RequestStartStopStatusEnum")⟩,
       ⟨"statusInfo", "statusInfo", true, false, .plain⟩,
       ⟨"transactionId", "transactionId", true, false, .plain⟩,
       ⟨"customData", "customData", true, false, .plain⟩],
    fromJ :=
      [⟨"status", "status", false, false, (.enum "v2.RequestStartStopStatusEnum")⟩,
       ⟨"statusInfo", "statusInfo", true, false, .plain⟩,
       ⟨"transactionId", "transactionId", true, false, .plain⟩,
       ⟨"customData", "customData", true, false, .plain⟩] }

/-- `RequestStopTransactionRequest`, include/ocpp/v2/messages/RequestStopTransaction.hpp l.19; `to_json`, lib/ocpp/v2/messages/RequestStopTransaction.cpp l.20-29; `from_json`, l.31-39. -/
def t_v2_RequestStopTransactionRequest : TypeTable :=
  { name := "v2.RequestStopTransactionRequest",
    fields :=
      [⟨"transactionId", false, false, .str (some 36)⟩,
       ⟨"customData", true, false, .json⟩],
    toJ :=
      [⟨"transactionId", "transactionId", false, false, .plain⟩,
       ⟨"customData", "customData", true, false, .plain⟩],
    fromJ :=
      [⟨"transactionId", "transactionId", false, false, .plain⟩,
       ⟨"customData", "customData", true, false, .plain⟩] }

/-- `RequestStopTransactionResponse`, include/ocpp/v2/messages/RequestStopTransaction.hpp l.40; `to_json`, lib/ocpp/v2/messages/RequestStopTransaction.cpp l.53-65; `from_json`, l.67-78. -/
def t_v2_RequestStopTransactionResponse : TypeTable :=
  { name := "v2.RequestStopTransactionResponse",
    fields :=
      [⟨"status", false, false, .enum "v2.RequestStartStopStatusEnum"⟩,
       ⟨"statusInfo", true, false, .struct "v2.StatusInfo"⟩,
       ⟨"customData", true, false, .json⟩],
    toJ :=
      [⟨"status", "status", false, false, (.enum "v2.RequestStartStopStatusEnum")⟩,
       ⟨"statusInfo", "statusInfo", true, false, .plain⟩,
       ⟨"customData", "customData", true, false, .plain⟩],
    fromJ :=
      [⟨"status", "status", false, false, (.enum "v2.RequestStartStopStatusEnum")⟩,
       ⟨"statusInfo", "statusInfo", true, false, .plain⟩,
       ⟨"customData", "customData", true, false, .plain⟩] }

/-- `ReservationStatusUpdateRequest`, include/ocpp/v2/messages/ReservationStatusUpdate.hpp l.19; `to_json`, lib/ocpp/v2/messages/ReservationStatusUpdate.cpp l.20-30; `from_json`, l.32-41. -/
def t_v2_ReservationStatusUpdateRequest : TypeTable :=
  { name := "v2.ReservationStatusUpdateRequest",
    fields :=
      [⟨"reservationId", false, false, .int⟩,
       ⟨"reservationUpdateStatus", false, false, .enum "v2.ReservationUpdateStatusEnum"⟩,
       ⟨"customData", true, false, .json⟩],
    toJ :=
      [⟨"reservationId", "reservationId", false, false, .plain⟩,
       ⟨"reservationUpdateStatus", "reservationUpdateStatus", false, false, (.enum "v2.ReservationUpdateStatusEnum")⟩,
       ⟨"customData", "customData", true, false, .plain⟩],
    fromJ :=
      [⟨"reservationId", "reservationId", false, false, .plain⟩,
       ⟨"reservationUpdateStatus", "reservationUpdateStatus", false, false, (.enum "v2.ReservationUpdateStatusEnum")⟩,
       ⟨"customData", "customData", true, false, .plain⟩] }

/-- `ReservationStatusUpdateResponse`, include/ocpp/v2/messages/ReservationStatusUpdate.hpp l.41; `to_json`, lib/ocpp/v2/messages/ReservationStatusUpdate.cpp l.55-62; `from_json`, l.64-71. -/
def t_v2_ReservationStatusUpdateResponse : TypeTable :=
  { name := "v2.ReservationStatusUpdateResponse",
    fields :=
      [⟨"customData", true, false, .json⟩],
    toJ :=
      [⟨"customData", "customData", true, false, .plain⟩],
    fromJ :=
      [⟨"customData", "customData", true, false, .plain⟩] }

/-- `ReserveNowRequest`, include/ocpp/v2/messages/ReserveNow.hpp l.19; `to_json`, lib/ocpp/v2/messages/ReserveNow.cpp l.20-40; `from_json`, l.42-61. -/
def t_v2_ReserveNowRequest : TypeTable :=
  { name := "v2.ReserveNowRequest",
    fields :=
      [⟨"id", false, false, .int⟩,
       ⟨"expiryDateTime", false, false, .time⟩,
       ⟨"idToken", false, false, .struct "v2.IdToken"⟩,
       ⟨"connectorType", true, false, .str (some 20)⟩,
       ⟨"evseId", true, false, .int⟩,
       ⟨"groupIdToken", true, false, .struct "v2.IdToken"⟩,
       ⟨"customData", true, false, .json⟩],
    toJ :=
      [⟨"id", "id", false, false, .plain⟩,
       ⟨"expiryDateTime", "expiryDateTime", false, false, .time⟩,
       ⟨"idToken", "idToken", false, false, .plain⟩,
       ⟨"connectorType", "connectorType", true, false, .plain⟩,
       ⟨"evseId", "evseId", true, false, .plain⟩,
       ⟨"groupIdToken", "groupIdToken", true, false, .plain⟩,
       ⟨"customData", "customData", true, false, .plain⟩],
    fromJ :=
      [⟨"id", "id", false, false, .plain⟩,
       ⟨"expiryDateTime", "expiryDateTime", false, false, .time⟩,
       ⟨"idToken", "idToken", false, false, .plain⟩,
       ⟨"connectorType", "connectorType", true, false, .plain⟩,
       ⟨"evseId", "evseId", true, false, .plain⟩,
       ⟨"groupIdToken", "groupIdToken", true, false, .plain⟩,
       ⟨"customData", "customData", true, false, .plain⟩] }

/-- `ReserveNowResponse`, include/ocpp/v2/messages/ReserveNow.hpp l.44; `to_json`, lib/ocpp/v2/messages/ReserveNow.cpp l.74-86; `from_json`, l.88-99. -/
def t_v2_ReserveNowResponse : TypeTable :=
  { name := "v2.ReserveNowResponse",
    fields :=
      [⟨"status", false, false, .enum "v2.ReserveNowStatusEnum"⟩,
       ⟨"statusInfo", true, false, .struct "v2.StatusInfo"⟩,
       ⟨"customData", true, false, .json⟩],
    toJ :=
      [⟨"status", "status", false, false, (.enum "v2.ReserveNowStatusEnum")⟩,
       ⟨"statusInfo", "statusInfo", true, false, .plain⟩,
       ⟨"customData", "customData", true, false, .plain⟩],
    fromJ :=
      [⟨"status", "status", false, false, (.enum "v2.ReserveNowStatusEnum")⟩,
       ⟨"statusInfo", "statusInfo", true, false, .plain⟩,
       ⟨"customData", "customData", true, false, .plain⟩] }

/-- `ResetRequest`, include/ocpp/v2/messages/Reset.hpp l.19; `to_json`, lib/ocpp/v2/messages/Reset.cpp l.20-32; `from_json`, l.34-45. -/
def t_v2_ResetRequest : TypeTable :=
  { name := "v2.ResetRequest",
    fields :=
      [⟨"type", false, false, .enum "v2.ResetEnum"⟩,
       ⟨"evseId", true, false, .int⟩,
       ⟨"customData", true, false, .json⟩],
    toJ :=
      [⟨"type", "type", false, false, (.enum "v2.ResetEnum")⟩,
       ⟨"evseId", "evseId", true, false, .plain⟩,
       ⟨"customData", "customData", true, false, .plain⟩],
    fromJ :=
      [⟨"type", "type", false, false, (.enum "v2.ResetEnum")⟩,
       ⟨"evseId", "evseId", true, false, .plain⟩,
       ⟨"customData", "customData", true, false, .plain⟩] }

/-- `ResetResponse`, include/ocpp/v2/messages/Reset.hpp l.40; `to_json`, lib/ocpp/v2/messages/Reset.cpp l.58-70; `from_json`, l.72-83. -/
def t_v2_ResetResponse : TypeTable :=
  { name := "v2.ResetResponse",
    fields :=
      [⟨"status", false, false, .enum "v2.ResetStatusEnum"⟩,
       ⟨"statusInfo", true, false, .struct "v2.StatusInfo"⟩,
       ⟨"customData", true, false, .json⟩],
    toJ :=
      [⟨"status", "status", false, false, (.enum "v2.ResetStatusEnum")⟩,
       ⟨"statusInfo", "statusInfo", true, false, .plain⟩,
       ⟨"customData", "customData", true, false, .plain⟩],
    fromJ :=
      [⟨"status", "status", false, false, (.enum "v2.ResetStatusEnum")⟩,
       ⟨"statusInfo", "statusInfo", true, false, .plain⟩,
       ⟨"customData", "customData", true, false, .plain⟩] }

/-- `SecurityEventNotificationRequest`, include/ocpp/v2/messages/SecurityEventNotification.hpp l.18; `to_json`, lib/ocpp/v2/messages/SecurityEventNotification.cpp l.20-33; `from_json`, l.35-47. -/
def t_v2_SecurityEventNotificationRequest : TypeTable :=
  { name := "v2.SecurityEventNotificationRequest",
    fields :=
      [⟨"type", false, false, .str (some 50)⟩,
       ⟨"timestamp", false, false, .time⟩,
       ⟨"techInfo", true, false, .str (some 255)⟩,
       ⟨"customData", true, false, .json⟩],
    toJ :=
      [⟨"type", "type", false, false, .plain⟩,
       ⟨"timestamp", "timestamp", false, false, .time⟩,
       ⟨"techInfo", "techInfo", true, false, .plain⟩,
       ⟨"customData", "customData", true, false, .plain⟩],
    fromJ :=
      [⟨"type", "type", false, false, .plain⟩,
       ⟨"timestamp", "timestamp", false, false, .time⟩,
       ⟨"techInfo", "techInfo", true, false, .plain⟩,
       ⟨"customData", "customData", true, false, .plain⟩] }

/-- `SecurityEventNotificationResponse`, include/ocpp/v2/messages/SecurityEventNotification.hpp l.41; `to_json`, lib/ocpp/v2/messages/SecurityEventNotification.cpp l.61-68; `from_json`, l.70-77. -/
def t_v2_SecurityEventNotificationResponse : TypeTable :=
  { name := "v2.SecurityEventNotificationResponse",
    fields :=
      [⟨"customData", true, false, .json⟩],
    toJ :=
      [⟨"customData", "customData", true, false, .plain⟩],
    fromJ :=
      [⟨"customData", "customData", true, false, .plain⟩] }

/-- `SendLocalListRequest`, include/ocpp/v2/messages/SendLocalList.hpp l.19; `to_json`, lib/ocpp/v2/messages/SendLocalList.cpp l.20-36; `from_json`, l.38-55. -/
def t_v2_SendLocalListRequest : TypeTable :=
  { name := "v2.SendLocalListRequest",
    fields :=
      [⟨"versionNumber", false, false, .int⟩,
       ⟨"updateType", false, false, .enum "v2.UpdateEnum"⟩,
       ⟨"localAuthorizationList", true, true, .struct "v2.AuthorizationData"⟩,
       ⟨"customData", true, false, .json⟩],
    toJ :=
      [⟨"versionNumber", "versionNumber", false, false, .plain⟩,
       ⟨"updateType", "updateType", false, false, (.enum "v2.UpdateEnum")⟩,
       ⟨"localAuthorizationList", "localAuthorizationList", true, true, .plain⟩,
       ⟨"customData", "customData", true, false, .plain⟩],
    fromJ :=
      [⟨"versionNumber", "versionNumber", false, false, .plain⟩,
       ⟨"updateType", "updateType", false, false, (.enum "v2.UpdateEnum")⟩,
       ⟨"localAuthorizationList", "localAuthorizationList", true, true, .plain⟩,
       ⟨"customData", "customData", true, false, .plain⟩] }

/-- `SendLocalListResponse`, include/ocpp/v2/messages/SendLocalList.hpp l.41; `to_json`, lib/ocpp/v2/messages/SendLocalList.cpp l.68-80; `from_json`, l.82-93. -/
def t_v2_SendLocalListResponse : TypeTable :=
  { name := "v2.SendLocalListResponse",
    fields :=
      [⟨"status", false, false, .enum "v2.SendLocalListStatusEnum"⟩,
       ⟨"statusInfo", true, false, .struct "v2.StatusInfo"⟩,
       ⟨"customData", true, false, .json⟩],
    toJ :=
      [⟨"status", "status", false, false, (.enum "v2.SendLocalListStatusEnum")⟩,
       ⟨"statusInfo", "statusInfo", true, false, .plain⟩,
       ⟨"customData", "customData", true, false, .plain⟩],
    fromJ :=
      [⟨"status", "status", false, false, (.enum "v2.SendLocalListStatusEnum")⟩,
       ⟨"statusInfo", "statusInfo", true, false, .plain⟩,
       ⟨"customData", "customData", true, false, .plain⟩] }

/-- `SetChargingProfileRequest`, include/ocpp/v2/messages/SetChargingProfile.hpp l.19; `to_json`, lib/ocpp/v2/messages/SetChargingProfile.cpp l.20-30; `from_json`, l.32-41. -/
def t_v2_SetChargingProfileRequest : TypeTable :=
  { name := "v2.SetChargingProfileRequest",
    fields :=
      [⟨"evseId", false, false, .int⟩,
       ⟨"chargingProfile", false, false, .struct "v2.ChargingProfile"⟩,
       ⟨"customData", true, false, .json⟩],
    toJ :=
      [⟨"evseId", "evseId", false, false, .plain⟩,
       ⟨"chargingProfile", "chargingProfile", false, false, .plain⟩,
       ⟨"customData", "customData", true, false, .plain⟩],
    fromJ :=
      [⟨"evseId", "evseId", false, false, .plain⟩,
       ⟨"chargingProfile", "chargingProfile", false, false, .plain⟩,
       ⟨"customData", "customData", true, false, .plain⟩] }

/-- `SetChargingProfileResponse`, include/ocpp/v2/messages/SetChargingProfile.hpp l.40; `to_json`, lib/ocpp/v2/messages/SetChargingProfile.cpp l.54-66; `from_json`, l.68-79. -/
def t_v2_SetChargingProfileResponse : TypeTable :=
  { name := "v2.SetChargingProfileResponse",
    fields :=
      [⟨"status", false, false, .enum "v2.ChargingProfileStatusEnum"⟩,
       ⟨"statusInfo", true, false, .struct "v2.StatusInfo"⟩,
       ⟨"customData", true, false, .json⟩],
    toJ :=
      [⟨"status", "status", false, false, (.enum "v2.ChargingProfileStatusEnum")⟩,
       ⟨"statusInfo", "statusInfo", true, false, .plain⟩,
       ⟨"customData", "customData", true, false, .plain⟩],
    fromJ :=
      [⟨"status", "status", false, false, (.enum "v2.ChargingProfileStatusEnum")⟩,
       ⟨"statusInfo", "statusInfo", true, false, .plain⟩,
       ⟨"customData", "customData", true, false, .plain⟩] }

/-- `SetDisplayMessageRequest`, include/ocpp/v2/messages/SetDisplayMessage.hpp l.19; `to_json`, lib/ocpp/v2/messages/SetDisplayMessage.cpp l.20-29; `from_json`, l.31-39. -/
def t_v2_SetDisplayMessageRequest : TypeTable :=
  { name := "v2.SetDisplayMessageRequest",
    fields :=
      [⟨"message", false, false, .struct "v2.MessageInfo"⟩,
       ⟨"customData", true, false, .json⟩],
    toJ :=
      [⟨"message", "message", false, false, .plain⟩,
       ⟨"customData", "customData", true, false, .plain⟩],
    fromJ :=
      [⟨"message", "message", false, false, .plain⟩,
       ⟨"customData", "customData", true, false, .plain⟩] }

/-- `SetDisplayMessageResponse`, include/ocpp/v2/messages/SetDisplayMessage.hpp l.39; `to_json`, lib/ocpp/v2/messages/SetDisplayMessage.cpp l.52-64; `from_json`, l.66-77. -/
def t_v2_SetDisplayMessageResponse : TypeTable :=
  { name := "v2.SetDisplayMessageResponse",
    fields :=
      [⟨"status", false, false, .enum "v2.DisplayMessageStatusEnum"⟩,
       ⟨"statusInfo", true, false, .struct "v2.StatusInfo"⟩,
       ⟨"customData", true, false, .json⟩],
    toJ :=
      [⟨"status", "status", false, false, (.enum "v2.DisplayMessageStatusEnum")⟩,
       ⟨"statusInfo", "statusInfo", true, false, .plain⟩,
       ⟨"customData", "customData", true, false, .plain⟩],
    fromJ :=
      [⟨"status", "status", false, false, (.enum "v2.DisplayMessageStatusEnum")⟩,
       ⟨"statusInfo", "statusInfo", true, false, .plain⟩,
       ⟨"customData", "customData", true, false, .plain⟩] }

/-- `SetMonitoringBaseRequest`, include/ocpp/v2/messages/SetMonitoringBase.hpp l.19; `to_json`, lib/ocpp/v2/messages/SetMonitoringBase.cpp l.20-29; `from_json`, l.31-39. -/
def t_v2_SetMonitoringBaseRequest : TypeTable :=
  { name := "v2.SetMonitoringBaseRequest",
    fields :=
      [⟨"monitoringBase", false, false, .enum "v2.MonitoringBaseEnum"⟩,
       ⟨"customData", true, false, .json⟩],
    toJ :=
      [⟨"monitoringBase", "monitoringBase", false, false, (.enum "v2.MonitoringBaseEnum")⟩,
       ⟨"customData", "customData", true, false, .plain⟩],
    fromJ :=
      [⟨"monitoringBase", "monitoringBase", false, false, (.enum "v2.MonitoringBaseEnum")⟩,
       ⟨"customData", "customData", true, false, .plain⟩] }

/-- `SetMonitoringBaseResponse`, include/ocpp/v2/messages/SetMonitoringBase.hpp l.39; `to_json`, lib/ocpp/v2/messages/SetMonitoringBase.cpp l.52-64; `from_json`, l.66-77. -/
def t_v2_SetMonitoringBaseResponse : TypeTable :=
  { name := "v2.SetMonitoringBaseResponse",
    fields :=
      [⟨"status", false, false, .enum "v2.GenericDeviceModelStatusEnum"⟩,
       ⟨"statusInfo", true, false, .struct "v2.StatusInfo"⟩,
       ⟨"customData", true, false, .json⟩],
    toJ :=
      [⟨"status", "status", false, false, (.enum "v2.GenericDeviceModelStatusEnum")⟩,
       ⟨"statusInfo", "statusInfo", true, false, .plain⟩,
       ⟨"customData", "customData", true, false, .plain⟩],
    fromJ :=
      [⟨"status", "status", false, false, (.enum "v2.GenericDeviceModelStatusEnum")⟩,
       ⟨"statusInfo", "statusInfo", true, false, .plain⟩,
       ⟨"customData", "customData", true, false, .plain⟩] }

/-- `SetMonitoringLevelRequest`, include/ocpp/v2/messages/SetMonitoringLevel.hpp l.19; `to_json`, lib/ocpp/v2/messages/SetMonitoringLevel.cpp l.20-29; `from_json`, l.31-39. -/
def t_v2_SetMonitoringLevelRequest : TypeTable :=
  { name := "v2.SetMonitoringLevelRequest",
    fields :=
      [⟨"severity", false, false, .int⟩,
       ⟨"customData", true, false, .json⟩],
    toJ :=
      [⟨"severity", "severity", false, false, .plain⟩,
       ⟨"customData", "customData", true, false, .plain⟩],
    fromJ :=
      [⟨"severity", "severity", false, false, .plain⟩,
       ⟨"customData", "customData", true, false, .plain⟩] }

/-- `SetMonitoringLevelResponse`, include/ocpp/v2/messages/SetMonitoringLevel.hpp l.39; `to_json`, lib/ocpp/v2/messages/SetMonitoringLevel.cpp l.52-64; `from_json`, l.66-77. -/
def t_v2_SetMonitoringLevelResponse : TypeTable :=
  { name := "v2.SetMonitoringLevelResponse",
    fields :=
      [⟨"status", false, false, .enum "v2.GenericStatusEnum"⟩,
       ⟨"statusInfo", true, false, .struct "v2.StatusInfo"⟩,
       ⟨"customData", true, false, .json⟩],
    toJ :=
      [⟨"status", "status", false, false, (.enum "v2.GenericStatusEnum")⟩,
       ⟨"statusInfo", "statusInfo", true, false, .plain⟩,
       ⟨"customData", "customData", true, false, .plain⟩],
    fromJ :=
      [⟨"status", "status", false, false, (.enum "v2.GenericStatusEnum")⟩,
       ⟨"statusInfo", "statusInfo", true, false, .plain⟩,
       ⟨"customData", "customData", true, false, .plain⟩] }

/-- `SetNetworkProfileRequest`, include/ocpp/v2/messages/SetNetworkProfile.hpp l.19; `to_json`, lib/ocpp/v2/messages/SetNetworkProfile.cpp l.20-30; `from_json`, l.32-41. -/
def t_v2_SetNetworkProfileRequest : TypeTable :=
  { name := "v2.SetNetworkProfileRequest",
    fields :=
      [⟨"configurationSlot", false, false, .int⟩,
       ⟨"connectionData", false, false, .struct "v2.NetworkConnectionProfile"⟩,
       ⟨"customData", true, false, .json⟩],
    toJ :=
      [⟨"configurationSlot", "configurationSlot", false, false, .plain⟩,
       ⟨"connectionData", "connectionData", false, false, .plain⟩,
       ⟨"customData", "customData", true, false, .plain⟩],
    fromJ :=
      [⟨"configurationSlot", "configurationSlot", false, false, .plain⟩,
       ⟨"connectionData", "connectionData", false, false, .plain⟩,
       ⟨"customData", "customData", true, false, .plain⟩] }

/-- `SetNetworkProfileResponse`, include/ocpp/v2/messages/SetNetworkProfile.hpp l.40; `to_json`, lib/ocpp/v2/messages/SetNetworkProfile.cpp l.54-66; `from_json`, l.68-79. -/
def t_v2_SetNetworkProfileResponse : TypeTable :=
  { name := "v2.SetNetworkProfileResponse",
    fields :=
      [⟨"status", false, false, .enum "v2.SetNetworkProfileStatusEnum"⟩,
       ⟨"statusInfo", true, false, .struct "v2.StatusInfo"⟩,
       ⟨"customData", true, false, .json⟩],
    toJ :=
      [⟨"status", "status", false, false, (.enum "v2.SetNetworkProfileStatusEnum")⟩,
       ⟨"statusInfo", "statusInfo", true, false, .plain⟩,
       ⟨"customData", "customData", true, false, .plain⟩],
    fromJ :=
      [⟨"status", "status", false, false, (.enum "v2.SetNetworkProfileStatusEnum")⟩,
       ⟨"statusInfo", "statusInfo", true, false, .plain⟩,
       ⟨"customData", "customData", true, false, .plain⟩] }

/-- `SetVariableMonitoringRequest`, include/ocpp/v2/messages/SetVariableMonitoring.hpp l.19; `to_json`, lib/ocpp/v2/messages/SetVariableMonitoring.cpp l.20-29; `from_json`, l.31-41. -/
def t_v2_SetVariableMonitoringRequest : TypeTable :=
  { name := "v2.SetVariableMonitoringRequest",
    fields :=
      [⟨"setMonitoringData", false, true, .struct "v2.SetMonitoringData"⟩,
       ⟨"customData", true, false, .json⟩],
    toJ :=
      [⟨"setMonitoringData", "setMonitoringData", false, false, .plain⟩,
       ⟨"customData", "customData", true, false, .plain⟩],
    fromJ :=
      [⟨"setMonitoringData", "setMonitoringData", false, true, .plain⟩,
       ⟨"customData", "customData", true, false, .plain⟩] }

/-- `SetVariableMonitoringResponse`, include/ocpp/v2/messages/SetVariableMonitoring.hpp l.40; `to_json`, lib/ocpp/v2/messages/SetVariableMonitoring.cpp l.55-64; `from_json`, l.66-76. -/
def t_v2_SetVariableMonitoringResponse : TypeTable :=
  { name := "v2.SetVariableMonitoringResponse",
    fields :=
      [⟨"setMonitoringResult", false, true, .struct "v2.SetMonitoringResult"⟩,
       ⟨"customData", true, false, .json⟩],
    toJ :=
      [⟨"setMonitoringResult", "setMonitoringResult", false, false, .plain⟩,
       ⟨"customData", "customData", true, false, .plain⟩],
    fromJ :=
      [⟨"setMonitoringResult", "setMonitoringResult", false, true, .plain⟩,
       ⟨"customData", "customData", true, false, .plain⟩] }

/-- `SetVariablesRequest`, include/ocpp/v2/messages/SetVariables.hpp l.19; `to_json`, lib/ocpp/v2/messages/SetVariables.cpp l.20-29; `from_json`, l.31-41. -/
def t_v2_SetVariablesRequest : TypeTable :=
  { name := "v2.SetVariablesRequest",
    fields :=
      [⟨"setVariableData", false, true, .struct "v2.SetVariableData"⟩,
       ⟨"customData", true, false, .json⟩],
    toJ :=
      [⟨"setVariableData", "setVariableData", false, false, .plain⟩,
       ⟨"customData", "customData", true, false, .plain⟩],
    fromJ :=
      [⟨"setVariableData", "setVariableData", false, true, .plain⟩,
       ⟨"customData", "customData", true, false, .plain⟩] }

/-- `SetVariablesResponse`, include/ocpp/v2/messages/SetVariables.hpp l.39; `to_json`, lib/ocpp/v2/messages/SetVariables.cpp l.54-63; `from_json`, l.65-75. -/
def t_v2_SetVariablesResponse : TypeTable :=
  { name := "v2.SetVariablesResponse",
    fields :=
      [⟨"setVariableResult", false, true, .struct "v2.SetVariableResult"⟩,
       ⟨"customData", true, false, .json⟩],
    toJ :=
      [⟨"setVariableResult", "setVariableResult", false, false, .plain⟩,
       ⟨"customData", "customData", true, false, .plain⟩],
    fromJ :=
      [⟨"setVariableResult", "setVariableResult", false, true, .plain⟩,
       ⟨"customData", "customData", true, false, .plain⟩] }

/-- `SignCertificateRequest`, include/ocpp/v2/messages/SignCertificate.hpp l.19; `to_json`, lib/ocpp/v2/messages/SignCertificate.cpp l.20-38; `from_json`, l.40-57. -/
def t_v2_SignCertificateRequest : TypeTable :=
  { name := "v2.SignCertificateRequest",
    fields :=
      [⟨"csr", false, false, .str (some 5500)⟩,
       ⟨"certificateType", true, false, .enum "v2.CertificateSigningUseEnum"⟩,
       ⟨"hashRootCertificate", true, false, .struct "v2.CertificateHashDataType"⟩,
       ⟨"requestId", true, false, .int⟩,
       ⟨"customData", true, false, .json⟩],
    toJ :=
      [⟨"csr", "csr", false, false, .plain⟩,
       ⟨"certificateType", "certificateType", true, false, (.enum "v2.CertificateSigningUseEnum")⟩,
       ⟨"hashRootCertificate", "hashRootCertificate", true, false, .plain⟩,
       ⟨"requestId", "requestId", true, false, .plain⟩,
       ⟨"customData", "customData", true, false, .plain⟩],
    fromJ :=
      [⟨"csr", "csr", false, false, .plain⟩,
       ⟨"certificateType", "certificateType", true, false, (.enum "v2.CertificateSigningUseEnum")⟩,
       ⟨"hashRootCertificate", "hashRootCertificate", true, false, .plain⟩,
       ⟨"requestId", "requestId", true, false, .plain⟩,
       ⟨"customData", "customData", true, false, .plain⟩] }

/-- `SignCertificateResponse`, include/ocpp/v2/messages/SignCertificate.hpp l.42; `to_json`, lib/ocpp/v2/messages/SignCertificate.cpp l.70-82; `from_json`, l.84-95. -/
def t_v2_SignCertificateResponse : TypeTable :=
  { name := "v2.SignCertificateResponse",
    fields :=
      [⟨"status", false, false, .enum "v2.GenericStatusEnum"⟩,
       ⟨"statusInfo", true, false, .struct "v2.StatusInfo"⟩,
       ⟨"customData", true, false, .json⟩],
    toJ :=
      [⟨"status", "status", false, false, (.enum "v2.GenericStatusEnum")⟩,
       ⟨"statusInfo", "statusInfo", true, false, .plain⟩,
       ⟨"customData", "customData", true, false, .plain⟩],
    fromJ :=
      [⟨"status", "status", false, false, (.enum "v2.GenericStatusEnum")⟩,
       ⟨"statusInfo", "statusInfo", true, false, .plain⟩,
       ⟨"customData", "customData", true, false, .plain⟩] }

/-- `StatusNotificationRequest`, include/ocpp/v2/messages/StatusNotification.hpp l.19; `to_json`, lib/ocpp/v2/messages/StatusNotification.cpp l.20-32; `from_json`, l.34-45. -/
def t_v2_StatusNotificationRequest : TypeTable :=
  { name := "v2.StatusNotificationRequest",
    fields :=
      [⟨"timestamp", false, false, .time⟩,
       ⟨"connectorStatus", false, false, .enum "v2.ConnectorStatusEnum"⟩,
       ⟨"evseId", false, false, .int⟩,
       ⟨"connectorId", false, false, .int⟩,
       ⟨"customData", true, false, .json⟩],
    toJ :=
      [⟨"timestamp", "timestamp", false, false, .time⟩,
       ⟨"connectorStatus", "connectorStatus", false, false, (.enum "v2.ConnectorStatusEnum")⟩,
       ⟨"evseId", "evseId", false, false, .plain⟩,
       ⟨"connectorId", "connectorId", false, false, .plain⟩,
       ⟨"customData", "customData", true, false, .plain⟩],
    fromJ :=
      [⟨"timestamp", "timestamp", false, false, .time⟩,
       ⟨"connectorStatus", "connectorStatus", false, false, (.enum "v2.ConnectorStatusEnum")⟩,
       ⟨"evseId", "evseId", false, false, .plain⟩,
       ⟨"connectorId", "connectorId", false, false, .plain⟩,
       ⟨"customData", "customData", true, false, .plain⟩] }

/-- `StatusNotificationResponse`, include/ocpp/v2/messages/StatusNotification.hpp l.42; `to_json`, lib/ocpp/v2/messages/StatusNotification.cpp l.58-65; `from_json`, l.67-74. -/
def t_v2_StatusNotificationResponse : TypeTable :=
  { name := "v2.StatusNotificationResponse",
    fields :=
      [⟨"customData", true, false, .json⟩],
    toJ :=
      [⟨"customData", "customData", true, false, .plain⟩],
    fromJ :=
      [⟨"customData", "customData", true, false, .plain⟩] }

/-- `TransactionEventRequest`, include/ocpp/v2/messages/TransactionEvent.hpp l.19; `to_json`, lib/ocpp/v2/messages/TransactionEvent.cpp l.20-67; `from_json`, l.69-117. -/
def t_v2_TransactionEventRequest : TypeTable :=
  { name := "v2.TransactionEventRequest",
    fields :=
      [⟨"eventType", false, false, .enum "v2.TransactionEventEnum"⟩,
       ⟨"timestamp", false, false, .time⟩,
       ⟨"triggerReason", false, false, .enum "v2.TriggerReasonEnum"⟩,
       ⟨"seqNo", false, false, .int⟩,
       ⟨"transactionInfo", false, false, .struct "v2.Transaction"⟩,
       ⟨"costDetails", true, false, .struct "v2.CostDetails"⟩,
       ⟨"meterValue", true, true, .struct "v2.MeterValue"⟩,
       ⟨"offline", true, false, .bool⟩,
       ⟨"numberOfPhasesUsed", true, false, .int⟩,
       ⟨"cableMaxCurrent", true, false, .int⟩,
       ⟨"reservationId", true, false, .int⟩,
       ⟨"preconditioningStatus", true, false, .enum "v2.PreconditioningStatusEnum"⟩,
       ⟨"evseSleep", true, false, .bool⟩,
       ⟨"evse", true, false, .struct "v2.EVSE"⟩,
       ⟨"idToken", true, false, .struct "v2.IdToken"⟩,
       ⟨"customData", true, false, .json⟩],
    toJ :=
      [⟨"eventType", "eventType", false, false, (.enum "v2.TransactionEventEnum")⟩,
       ⟨"timestamp", "timestamp", false, false, .time⟩,
       ⟨"triggerReason", "triggerReason", false, false, (.enum "v2.TriggerReasonEnum")⟩,
       ⟨"seqNo", "seqNo", false, false, .plain⟩,
       ⟨"transactionInfo", "transactionInfo", false, false, .plain⟩,
       ⟨"costDetails", "costDetails", true, false, .plain⟩,
       ⟨"meterValue", "meterValue", true, true, .plain⟩,
       ⟨"offline", "offline", true, false, .plain⟩,
       ⟨"numberOfPhasesUsed", "numberOfPhasesUsed", true, false, .plain⟩,
       ⟨"cableMaxCurrent", "cableMaxCurrent", true, false, .plain⟩,
       ⟨"reservationId", "reservationId", true, false, .plain⟩,
       ⟨"preconditioningStatus", "preconditioningStatus", true, false, (.enum "v2.PreconditioningStatusEnum")⟩,
       ⟨"evseSleep", "evseSleep", true, false, .plain⟩,
       ⟨"evse", "evse", true, false, .plain⟩,
       ⟨"idToken", "idToken", true, false, .plain⟩,
       ⟨"customData", "customData", true, false, .plain⟩],
    fromJ :=
      [⟨"eventType", "eventType", false, false, (.enum "v2.TransactionEventEnum")⟩,
       ⟨"timestamp", "timestamp", false, false, .time⟩,
       ⟨"triggerReason", "triggerReason", false, false, (.enum "v2.TriggerReasonEnum")⟩,
       ⟨"seqNo", "seqNo", false, false, .plain⟩,
       ⟨"transactionInfo", "transactionInfo", false, false, .plain⟩,
       ⟨"costDetails", "costDetails", true, false, .plain⟩,
       ⟨"meterValue", "meterValue", true, true, .plain⟩,
       ⟨"offline", "offline", true, false, .plain⟩,
       ⟨"numberOfPhasesUsed", "numberOfPhasesUsed", true, false, .plain⟩,
       ⟨"cableMaxCurrent", "cableMaxCurrent", true, false, .plain⟩,
       ⟨"reservationId", "reservationId", true, false, .plain⟩,
       ⟨"preconditioningStatus", "preconditioningStatus", true, false, (.enum "v2.PreconditioningStatusEnum")⟩,
       ⟨"evseSleep", "evseSleep", true, false, .plain⟩,
       ⟨"evse", "evse", true, false, .plain⟩,
       ⟨"idToken", "idToken", true, false, .plain⟩,
       ⟨"customData", "customData", true, false, .plain⟩] }

/-- `TransactionEventResponse`, include/ocpp/v2/messages/TransactionEvent.hpp l.53; `to_json`, lib/ocpp/v2/messages/TransactionEvent.cpp l.130-162; `from_json`, l.164-194. -/
def t_v2_TransactionEventResponse : TypeTable :=
  { name := "v2.TransactionEventResponse",
    fields :=
      [⟨"totalCost", true, false, .num⟩,
       ⟨"chargingPriority", true, false, .int⟩,
       ⟨"idTokenInfo", true, false, .struct "v2.IdTokenInfo"⟩,
       ⟨"transactionLimit", true, false, .struct "v2.TransactionLimit"⟩,
       ⟨"updatedPersonalMessage", true, false, .struct "v2.MessageContent"⟩,
       ⟨"updatedPersonalMessageExtra", true, true, .struct "v2.MessageContent"⟩,
       ⟨"customData", true, false, .json⟩],
    toJ :=
      [⟨"totalCost", "totalCost", true, false, .plain⟩,
       ⟨"chargingPriority", "chargingPriority", true, false, .plain⟩,
       ⟨"idTokenInfo", "idTokenInfo", true, false, .plain⟩,
       ⟨"transactionLimit", "transactionLimit", true, false, .plain⟩,
       ⟨"updatedPersonalMessage", "updatedPersonalMessage", true, false, .plain⟩,
       ⟨"updatedPersonalMessageExtra", "updatedPersonalMessageExtra", true, true, .plain⟩,
       ⟨"customData", "customData", true, false, .plain⟩],
    fromJ :=
      [⟨"totalCost", "totalCost", true, false, .plain⟩,
       ⟨"chargingPriority", "chargingPriority", true, false, .plain⟩,
       ⟨"idTokenInfo", "idTokenInfo", true, false, .plain⟩,
       ⟨"transactionLimit", "transactionLimit", true, false, .plain⟩,
       ⟨"updatedPersonalMessage", "updatedPersonalMessage", true, false, .plain⟩,
       ⟨"updatedPersonalMessageExtra", "updatedPersonalMessageExtra", true, true, .plain⟩,
       ⟨"customData", "customData", true, false, .plain⟩] }

/-- `TriggerMessageRequest`, include/ocpp/v2/messages/TriggerMessage.hpp l.19; `to_json`, lib/ocpp/v2/messages/TriggerMessage.cpp l.20-35; `from_json`, l.37-51. -/
def t_v2_TriggerMessageRequest : TypeTable :=
  { name := "v2.TriggerMessageRequest",
    fields :=
      [⟨"requestedMessage", false, false, .enum "v2.MessageTriggerEnum"⟩,
       ⟨"evse", true, false, .struct "v2.EVSE"⟩,
       ⟨"customTrigger", true, false, .str (some 50)⟩,
       ⟨"customData", true, false, .json⟩],
    toJ :=
      [⟨"requestedMessage", "requestedMessage", false, false, (.enum "v2.MessageTriggerEnum")⟩,
       ⟨"evse", "evse", true, false, .plain⟩,
       ⟨"customTrigger", "customTrigger", true, false, .plain⟩,
       ⟨"customData", "customData", true, false, .plain⟩],
    fromJ :=
      [⟨"requestedMessage", "requestedMessage", false, false, (.enum "v2.MessageTriggerEnum")⟩,
       ⟨"evse", "evse", true, false, .plain⟩,
       ⟨"customTrigger", "customTrigger", true, false, .plain⟩,
       ⟨"customData", "customData", true, false, .plain⟩] }

/-- `TriggerMessageResponse`, include/ocpp/v2/messages/TriggerMessage.hpp l.41; `to_json`, lib/ocpp/v2/messages/TriggerMessage.cpp l.64-76; `from_json`, l.78-89. -/
def t_v2_TriggerMessageResponse : TypeTable :=
  { name := "v2.TriggerMessageResponse",
    fields :=
      [⟨"status", false, false, .enum "v2.TriggerMessageStatusEnum"⟩,
       ⟨"statusInfo", true, false, .struct "v2.StatusInfo"⟩,
       ⟨"customData", true, false, .json⟩],
    toJ :=
      [⟨"status", "status", false, false, (.enum "v2.TriggerMessageStatusEnum")⟩,
       ⟨"statusInfo", "statusInfo", true, false, .plain⟩,
       ⟨"customData", "customData", true, false, .plain⟩],
    fromJ :=
      [⟨"status", "status", false, false, (.enum "v2.TriggerMessageStatusEnum")⟩,
       ⟨"statusInfo", "statusInfo", true, false, .plain⟩,
       ⟨"customData", "customData", true, false, .plain⟩] }

/-- `UnlockConnectorRequest`, include/ocpp/v2/messages/UnlockConnector.hpp l.19; `to_json`, lib/ocpp/v2/messages/UnlockConnector.cpp l.20-30; `from_json`, l.32-41. -/
def t_v2_UnlockConnectorRequest : TypeTable :=
  { name := "v2.UnlockConnectorRequest",
    fields :=
      [⟨"evseId", false, false, .int⟩,
       ⟨"connectorId", false, false, .int⟩,
       ⟨"customData", true, false, .json⟩],
    toJ :=
      [⟨"evseId", "evseId", false, false, .plain⟩,
       ⟨"connectorId", "connectorId", false, false, .plain⟩,
       ⟨"customData", "customData", true, false, .plain⟩],
    fromJ :=
      [⟨"evseId", "evseId", false, false, .plain⟩,
       ⟨"connectorId", "connectorId", false, false, .plain⟩,
       ⟨"customData", "customData", true, false, .plain⟩] }

/-- `UnlockConnectorResponse`, include/ocpp/v2/messages/UnlockConnector.hpp l.40; `to_json`, lib/ocpp/v2/messages/UnlockConnector.cpp l.54-66; `from_json`, l.68-79. -/
def t_v2_UnlockConnectorResponse : TypeTable :=
  { name := "v2.UnlockConnectorResponse",
    fields :=
      [⟨"status", false, false, .enum "v2.UnlockStatusEnum"⟩,
       ⟨"statusInfo", true, false, .struct "v2.StatusInfo"⟩,
       ⟨"customData", true, false, .json⟩],
    toJ :=
      [⟨"status", "status", false, false, (.enum "v2.UnlockStatusEnum")⟩,
       ⟨"statusInfo", "statusInfo", true, false, .plain⟩,
       ⟨"customData", "customData", true, false, .plain⟩],
    fromJ :=
      [⟨"status", "status", false, false, (.enum "v2.UnlockStatusEnum")⟩,
       ⟨"statusInfo", "statusInfo", true, false, .plain⟩,
       ⟨"customData", "customData", true, false, .plain⟩] }

/-- `UnpublishFirmwareRequest`, include/ocpp/v2/messages/UnpublishFirmware.hpp l.19; `to_json`, lib/ocpp/v2/messages/UnpublishFirmware.cpp l.20-29; `from_json`, l.31-39. -/
def t_v2_UnpublishFirmwareRequest : TypeTable :=
  { name := "v2.UnpublishFirmwareRequest",
    fields :=
      [⟨"checksum", false, false, .str (some 32)⟩,
       ⟨"customData", true, false, .json⟩],
    toJ :=
      [⟨"checksum", "checksum", false, false, .plain⟩,
       ⟨"customData", "customData", true, false, .plain⟩],
    fromJ :=
      [⟨"checksum", "checksum", false, false, .plain⟩,
       ⟨"customData", "customData", true, false, .plain⟩] }

/-- `UnpublishFirmwareResponse`, include/ocpp/v2/messages/UnpublishFirmware.hpp l.39; `to_json`, lib/ocpp/v2/messages/UnpublishFirmware.cpp l.52-61; `from_json`, l.63-71. -/
def t_v2_UnpublishFirmwareResponse : TypeTable :=
  { name := "v2.UnpublishFirmwareResponse",
    fields :=
      [⟨"status", false, false, .enum "v2.UnpublishFirmwareStatusEnum"⟩,
       ⟨"customData", true, false, .json⟩],
    toJ :=
      [⟨"status", "status", false, false, (.enum "v2.UnpublishFirmwareStatusEnum")⟩,
       ⟨"customData", "customData", true, false, .plain⟩],
    fromJ :=
      [⟨"status", "status", false, false, (.enum "v2.UnpublishFirmwareStatusEnum")⟩,
       ⟨"customData", "customData", true, false, .plain⟩] }

/-- `UpdateFirmwareRequest`, include/ocpp/v2/messages/UpdateFirmware.hpp l.19; `to_json`, lib/ocpp/v2/messages/UpdateFirmware.cpp l.20-36; `from_json`, l.38-53. -/
def t_v2_UpdateFirmwareRequest : TypeTable :=
  { name := "v2.UpdateFirmwareRequest",
    fields :=
      [⟨"requestId", false, false, .int⟩,
       ⟨"firmware", false, false, .struct "v2.Firmware"⟩,
       ⟨"retries", true, false, .int⟩,
       ⟨"retryInterval", true, false, .int⟩,
       ⟨"customData", true, false, .json⟩],
    toJ :=
      [⟨"requestId", "requestId", false, false, .plain⟩,
       ⟨"firmware", "firmware", false, false, .plain⟩,
       ⟨"retries", "retries", true, false, .plain⟩,
       ⟨"retryInterval", "retryInterval", true, false, .plain⟩,
       ⟨"customData", "customData", true, false, .plain⟩],
    fromJ :=
      [⟨"requestId", "requestId", false, false, .plain⟩,
       ⟨"firmware", "firmware", false, false, .plain⟩,
       ⟨"retries", "retries", true, false, .plain⟩,
       ⟨"retryInterval", "retryInterval", true, false, .plain⟩,
       ⟨"customData", "customData", true, false, .plain⟩] }

/-- `UpdateFirmwareResponse`, include/ocpp/v2/messages/UpdateFirmware.hpp l.42; `to_json`, lib/ocpp/v2/messages/UpdateFirmware.cpp l.66-78; `from_json`, l.80-91. -/
def t_v2_UpdateFirmwareResponse : TypeTable :=
  { name := "v2.UpdateFirmwareResponse",
    fields :=
      [⟨"status", false, false, .enum "v2.UpdateFirmwareStatusEnum"⟩,
       ⟨"statusInfo", true, false, .struct "v2.StatusInfo"⟩,
       ⟨"customData", true, false, .json⟩],
    toJ :=
      [⟨"status", "status", false, false, (.enum "v2.UpdateFirmwareStatusEnum")⟩,
       ⟨"statusInfo", "statusInfo", true, false, .plain⟩,
       ⟨"customData", "customData", true, false, .plain⟩],
    fromJ :=
      [⟨"status", "status", false, false, (.enum "v2.UpdateFirmwareStatusEnum")⟩,
       ⟨"statusInfo", "statusInfo", true, false, .plain⟩,
       ⟨"customData", "customData", true, false, .plain⟩] }

/-- All of them. -/
def typesV2c : List TypeTable :=
  [t_v2_GetLogRequest, t_v2_GetLogResponse, t_v2_GetMonitoringReportRequest, t_v2_GetMonitoringReportResponse, t_v2_GetReportRequest,
   t_v2_GetReportResponse, t_v2_GetTransactionStatusRequest, t_v2_GetTransactionStatusResponse, t_v2_GetVariablesRequest, t_v2_GetVariablesResponse,
   t_v2_HeartbeatRequest, t_v2_HeartbeatResponse, t_v2_InstallCertificateRequest, t_v2_InstallCertificateResponse, t_v2_LogStatusNotificationRequest,
   t_v2_LogStatusNotificationResponse, t_v2_MeterValuesRequest, t_v2_MeterValuesResponse, t_v2_NotifyChargingLimitRequest,
   t_v2_NotifyChargingLimitResponse, t_v2_NotifyCustomerInformationRequest, t_v2_NotifyCustomerInformationResponse, t_v2_NotifyDisplayMessagesRequest,
   t_v2_NotifyDisplayMessagesResponse, t_v2_NotifyEVChargingNeedsRequest, t_v2_NotifyEVChargingNeedsResponse, t_v2_NotifyEVChargingScheduleRequest,
   t_v2_NotifyEVChargingScheduleResponse, t_v2_NotifyEventRequest, t_v2_NotifyEventResponse, t_v2_NotifyMonitoringReportRequest,
   t_v2_NotifyMonitoringReportResponse, t_v2_NotifyReportRequest, t_v2_NotifyReportResponse, t_v2_PublishFirmwareRequest,
   t_v2_PublishFirmwareResponse, t_v2_PublishFirmwareStatusNotificationRequest, t_v2_PublishFirmwareStatusNotificationResponse,
   t_v2_ReportChargingProfilesRequest, t_v2_ReportChargingProfilesResponse, t_v2_RequestStartTransactionRequest, t_v2_RequestStartTransactionResponse,
   t_v2_RequestStopTransactionRequest, t_v2_RequestStopTransactionResponse, t_v2_ReservationStatusUpdateRequest, t_v2_ReservationStatusUpdateResponse,
   t_v2_ReserveNowRequest, t_v2_ReserveNowResponse, t_v2_ResetRequest, t_v2_ResetResponse, t_v2_SecurityEventNotificationRequest,
   t_v2_SecurityEventNotificationResponse, t_v2_SendLocalListRequest, t_v2_SendLocalListResponse, t_v2_SetChargingProfileRequest,
   t_v2_SetChargingProfileResponse, t_v2_SetDisplayMessageRequest, t_v2_SetDisplayMessageResponse, t_v2_SetMonitoringBaseRequest,
   t_v2_SetMonitoringBaseResponse, t_v2_SetMonitoringLevelRequest, t_v2_SetMonitoringLevelResponse, t_v2_SetNetworkProfileRequest,
   t_v2_SetNetworkProfileResponse, t_v2_SetVariableMonitoringRequest, t_v2_SetVariableMonitoringResponse, t_v2_SetVariablesRequest,
   t_v2_SetVariablesResponse, t_v2_SignCertificateRequest, t_v2_SignCertificateResponse, t_v2_StatusNotificationRequest,
   t_v2_StatusNotificationResponse, t_v2_TransactionEventRequest, t_v2_TransactionEventResponse, t_v2_TriggerMessageRequest,
   t_v2_TriggerMessageResponse, t_v2_UnlockConnectorRequest, t_v2_UnlockConnectorResponse, t_v2_UnpublishFirmwareRequest,
   t_v2_UnpublishFirmwareResponse, t_v2_UpdateFirmwareRequest, t_v2_UpdateFirmwareResponse]

end Verif.Wire
