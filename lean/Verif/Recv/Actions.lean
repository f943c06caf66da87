/-!
Names of the messages, generated from the headers.
-/

namespace Verif.Recv

/-- `MessageType` of OCPP 1.6 (include/ocpp/v16/types.hpp l.23-103). -/
inductive A16
  | authorize | authorizeResponse | bootNotification | bootNotificationResponse | cancelReservation | cancelReservationResponse
  | certificateSigned | certificateSignedResponse | changeAvailability | changeAvailabilityResponse | changeConfiguration
  | changeConfigurationResponse | clearCache | clearCacheResponse | clearChargingProfile | clearChargingProfileResponse | dataTransfer
  | dataTransferResponse | deleteCertificate | deleteCertificateResponse | diagnosticsStatusNotification
  | diagnosticsStatusNotificationResponse | extendedTriggerMessage | extendedTriggerMessageResponse | firmwareStatusNotification
  | firmwareStatusNotificationResponse | getCompositeSchedule | getCompositeScheduleResponse | getConfiguration | getConfigurationResponse
  | getDiagnostics | getDiagnosticsResponse | getInstalledCertificateIds | getInstalledCertificateIdsResponse | getLocalListVersion
  | getLocalListVersionResponse | getLog | getLogResponse | heartbeat | heartbeatResponse | installCertificate | installCertificateResponse
  | logStatusNotification | logStatusNotificationResponse | meterValues | meterValuesResponse | remoteStartTransaction
  | remoteStartTransactionResponse | remoteStopTransaction | remoteStopTransactionResponse | reserveNow | reserveNowResponse | reset
  | resetResponse | securityEventNotification | securityEventNotificationResponse | sendLocalList | sendLocalListResponse
  | setChargingProfile | setChargingProfileResponse | signCertificate | signCertificateResponse | signedFirmwareStatusNotification
  | signedFirmwareStatusNotificationResponse | signedUpdateFirmware | signedUpdateFirmwareResponse | startTransaction
  | startTransactionResponse | statusNotification | statusNotificationResponse | stopTransaction | stopTransactionResponse | triggerMessage
  | triggerMessageResponse | unlockConnector | unlockConnectorResponse | updateFirmware | updateFirmwareResponse | internalError
  deriving DecidableEq, Repr

/-- The names of `messagetype_to_string`, in the order of the header (without InternalError, lib/ocpp/v16/types.cpp l.181ff). -/
def A16.names : List (String × A16) :=
  [("Authorize", .authorize), ("AuthorizeResponse", .authorizeResponse), ("BootNotification", .bootNotification),
   ("BootNotificationResponse", .bootNotificationResponse), ("CancelReservation", .cancelReservation),
   ("CancelReservationResponse", .cancelReservationResponse), ("CertificateSigned", .certificateSigned),
   ("CertificateSignedResponse", .certificateSignedResponse), ("ChangeAvailability", .changeAvailability),
   ("ChangeAvailabilityResponse", .changeAvailabilityResponse), ("ChangeConfiguration", .changeConfiguration),
   ("ChangeConfigurationResponse", .changeConfigurationResponse), ("ClearCache", .clearCache), ("ClearCacheResponse", .clearCacheResponse),
   ("ClearChargingProfile", .clearChargingProfile), ("ClearChargingProfileResponse", .clearChargingProfileResponse),
   ("DataTransfer", .dataTransfer), ("DataTransferResponse", .dataTransferResponse), ("DeleteCertificate", .deleteCertificate),
   ("DeleteCertificateResponse", .deleteCertificateResponse), ("DiagnosticsStatusNotification", .diagnosticsStatusNotification),
   ("DiagnosticsStatusNotificationResponse", .diagnosticsStatusNotificationResponse), ("ExtendedTriggerMessage", .extendedTriggerMessage),
   ("ExtendedTriggerMessageResponse", .extendedTriggerMessageResponse), ("FirmwareStatusNotification", .firmwareStatusNotification),
   ("FirmwareStatusNotificationResponse", .firmwareStatusNotificationResponse), ("GetCompositeSchedule", .getCompositeSchedule),
   ("GetCompositeScheduleResponse", .getCompositeScheduleResponse), ("GetConfiguration", .getConfiguration),
   ("GetConfigurationResponse", .getConfigurationResponse), ("GetDiagnostics", .getDiagnostics),
   ("GetDiagnosticsResponse", .getDiagnosticsResponse), ("GetInstalledCertificateIds", .getInstalledCertificateIds),
   ("GetInstalledCertificateIdsResponse", .getInstalledCertificateIdsResponse), ("GetLocalListVersion", .getLocalListVersion),
   ("GetLocalListVersionResponse", .getLocalListVersionResponse), ("GetLog", .getLog), ("GetLogResponse", .getLogResponse),
   ("Heartbeat", .heartbeat), ("HeartbeatResponse", .heartbeatResponse), ("InstallCertificate", .installCertificate),
   ("InstallCertificateResponse", .installCertificateResponse), ("LogStatusNotification", .logStatusNotification),
   ("LogStatusNotificationResponse", .logStatusNotificationResponse), ("MeterValues", .meterValues),
   ("MeterValuesResponse", .meterValuesResponse), ("RemoteStartTransaction", .remoteStartTransaction),
   ("RemoteStartTransactionResponse", .remoteStartTransactionResponse), ("RemoteStopTransaction", .remoteStopTransaction),
   ("RemoteStopTransactionResponse", .remoteStopTransactionResponse), ("ReserveNow", .reserveNow),
   ("ReserveNowResponse", .reserveNowResponse), ("Reset", .reset), ("ResetResponse", .resetResponse),
   ("SecurityEventNotification", .securityEventNotification), ("SecurityEventNotificationResponse", .securityEventNotificationResponse),
   ("SendLocalList", .sendLocalList), ("SendLocalListResponse", .sendLocalListResponse), ("SetChargingProfile", .setChargingProfile),
   ("SetChargingProfileResponse", .setChargingProfileResponse), ("SignCertificate", .signCertificate),
   ("SignCertificateResponse", .signCertificateResponse), ("SignedFirmwareStatusNotification", .signedFirmwareStatusNotification),
   ("SignedFirmwareStatusNotificationResponse", .signedFirmwareStatusNotificationResponse), ("SignedUpdateFirmware", .signedUpdateFirmware),
   ("SignedUpdateFirmwareResponse", .signedUpdateFirmwareResponse), ("StartTransaction", .startTransaction),
   ("StartTransactionResponse", .startTransactionResponse), ("StatusNotification", .statusNotification),
   ("StatusNotificationResponse", .statusNotificationResponse), ("StopTransaction", .stopTransaction),
   ("StopTransactionResponse", .stopTransactionResponse), ("TriggerMessage", .triggerMessage),
   ("TriggerMessageResponse", .triggerMessageResponse), ("UnlockConnector", .unlockConnector),
   ("UnlockConnectorResponse", .unlockConnectorResponse), ("UpdateFirmware", .updateFirmware),
   ("UpdateFirmwareResponse", .updateFirmwareResponse)]

/-- `string_to_messagetype`; `none`: the exception `EnumConversionException`. -/
def A16.ofName (s : String) : Option A16 := (A16.names.find? (fun p => p.1 == s)).map Prod.snd

/-- `MessageType` of OCPP 2.x (include/ocpp/v2/types.hpp l.15-195). -/
inductive A2
  | authorize | authorizeResponse | bootNotification | bootNotificationResponse | cancelReservation | cancelReservationResponse
  | certificateSigned | certificateSignedResponse | changeAvailability | changeAvailabilityResponse | clearCache | clearCacheResponse
  | clearChargingProfile | clearChargingProfileResponse | clearDisplayMessage | clearDisplayMessageResponse | clearedChargingLimit
  | clearedChargingLimitResponse | clearVariableMonitoring | clearVariableMonitoringResponse | costUpdated | costUpdatedResponse
  | customerInformation | customerInformationResponse | dataTransfer | dataTransferResponse | deleteCertificate | deleteCertificateResponse
  | firmwareStatusNotification | firmwareStatusNotificationResponse | get15118EVCertificate | get15118EVCertificateResponse | getBaseReport
  | getBaseReportResponse | getCertificateStatus | getCertificateStatusResponse | getChargingProfiles | getChargingProfilesResponse
  | getCompositeSchedule | getCompositeScheduleResponse | getDisplayMessages | getDisplayMessagesResponse | getInstalledCertificateIds
  | getInstalledCertificateIdsResponse | getLocalListVersion | getLocalListVersionResponse | getLog | getLogResponse | getMonitoringReport
  | getMonitoringReportResponse | getReport | getReportResponse | getTransactionStatus | getTransactionStatusResponse | getVariables
  | getVariablesResponse | heartbeat | heartbeatResponse | installCertificate | installCertificateResponse | logStatusNotification
  | logStatusNotificationResponse | meterValues | meterValuesResponse | notifyChargingLimit | notifyChargingLimitResponse
  | notifyCustomerInformation | notifyCustomerInformationResponse | notifyDisplayMessages | notifyDisplayMessagesResponse
  | notifyEVChargingNeeds | notifyEVChargingNeedsResponse | notifyEVChargingSchedule | notifyEVChargingScheduleResponse | notifyEvent
  | notifyEventResponse | notifyMonitoringReport | notifyMonitoringReportResponse | notifyReport | notifyReportResponse | publishFirmware
  | publishFirmwareResponse | publishFirmwareStatusNotification | publishFirmwareStatusNotificationResponse | reportChargingProfiles
  | reportChargingProfilesResponse | requestStartTransaction | requestStartTransactionResponse | requestStopTransaction
  | requestStopTransactionResponse | reservationStatusUpdate | reservationStatusUpdateResponse | reserveNow | reserveNowResponse | reset
  | resetResponse | securityEventNotification | securityEventNotificationResponse | sendLocalList | sendLocalListResponse
  | setChargingProfile | setChargingProfileResponse | setDisplayMessage | setDisplayMessageResponse | setMonitoringBase
  | setMonitoringBaseResponse | setMonitoringLevel | setMonitoringLevelResponse | setNetworkProfile | setNetworkProfileResponse
  | setVariableMonitoring | setVariableMonitoringResponse | setVariables | setVariablesResponse | signCertificate | signCertificateResponse
  | statusNotification | statusNotificationResponse | transactionEvent | transactionEventResponse | triggerMessage | triggerMessageResponse
  | unlockConnector | unlockConnectorResponse | unpublishFirmware | unpublishFirmwareResponse | updateFirmware | updateFirmwareResponse
  | adjustPeriodicEventStream | adjustPeriodicEventStreamResponse | afrrSignal | afrrSignalResponse | batterySwap | batterySwapResponse
  | changeTransactionTariff | changeTransactionTariffResponse | clearDERControl | clearDERControlResponse | clearTariffs
  | clearTariffsResponse | closePeriodicEventStream | closePeriodicEventStreamResponse | getCRL | getCRLResponse | getDERControl
  | getDERControlResponse | getPeriodicEventStream | getPeriodicEventStreamResponse | getTariffs | getTariffsResponse
  | notifyAllowedEnergyTransfer | notifyAllowedEnergyTransferResponse | notifyDERAlarm | notifyDERAlarmResponse | notifyDERStartStop
  | notifyDERStartStopResponse | notifyPeriodicEventStream | notifyPeriodicEventStreamResponse | notifyPriorityCharging
  | notifyPriorityChargingResponse | notifySettlement | notifySettlementResponse | openPeriodicEventStream
  | openPeriodicEventStreamResponse | pullDynamicScheduleUpdate | pullDynamicScheduleUpdateResponse | requestBatterySwap
  | requestBatterySwapResponse | setDefaultTariff | setDefaultTariffResponse | setDERControl | setDERControlResponse
  | updateDynamicSchedule | updateDynamicScheduleResponse | usePriorityCharging | usePriorityChargingResponse | vatNumberValidation
  | vatNumberValidationResponse | internalError
  deriving DecidableEq, Repr

/-- The names of `messagetype_to_string`, in the order of the header. -/
def A2.names : List (String × A2) :=
  [("Authorize", .authorize), ("AuthorizeResponse", .authorizeResponse), ("BootNotification", .bootNotification),
   ("BootNotificationResponse", .bootNotificationResponse), ("CancelReservation", .cancelReservation),
   ("CancelReservationResponse", .cancelReservationResponse), ("CertificateSigned", .certificateSigned),
   ("CertificateSignedResponse", .certificateSignedResponse), ("ChangeAvailability", .changeAvailability),
   ("ChangeAvailabilityResponse", .changeAvailabilityResponse), ("ClearCache", .clearCache), ("ClearCacheResponse", .clearCacheResponse),
   ("ClearChargingProfile", .clearChargingProfile), ("ClearChargingProfileResponse", .clearChargingProfileResponse),
   ("ClearDisplayMessage", .clearDisplayMessage), ("ClearDisplayMessageResponse", .clearDisplayMessageResponse),
   ("ClearedChargingLimit", .clearedChargingLimit), ("ClearedChargingLimitResponse", .clearedChargingLimitResponse),
   ("ClearVariableMonitoring", .clearVariableMonitoring), ("ClearVariableMonitoringResponse", .clearVariableMonitoringResponse),
   ("CostUpdated", .costUpdated), ("CostUpdatedResponse", .costUpdatedResponse), ("CustomerInformation", .customerInformation),
   ("CustomerInformationResponse", .customerInformationResponse), ("DataTransfer", .dataTransfer),
   ("DataTransferResponse", .dataTransferResponse), ("DeleteCertificate", .deleteCertificate),
   ("DeleteCertificateResponse", .deleteCertificateResponse), ("FirmwareStatusNotification", .firmwareStatusNotification),
   ("FirmwareStatusNotificationResponse", .firmwareStatusNotificationResponse), ("Get15118EVCertificate", .get15118EVCertificate),
   ("Get15118EVCertificateResponse", .get15118EVCertificateResponse), ("GetBaseReport", .getBaseReport),
   ("GetBaseReportResponse", .getBaseReportResponse), ("GetCertificateStatus", .getCertificateStatus),
   ("GetCertificateStatusResponse", .getCertificateStatusResponse), ("GetChargingProfiles", .getChargingProfiles),
   ("GetChargingProfilesResponse", .getChargingProfilesResponse), ("GetCompositeSchedule", .getCompositeSchedule),
   ("GetCompositeScheduleResponse", .getCompositeScheduleResponse), ("GetDisplayMessages", .getDisplayMessages),
   ("GetDisplayMessagesResponse", .getDisplayMessagesResponse), ("GetInstalledCertificateIds", .getInstalledCertificateIds),
   ("GetInstalledCertificateIdsResponse", .getInstalledCertificateIdsResponse), ("GetLocalListVersion", .getLocalListVersion),
   ("GetLocalListVersionResponse", .getLocalListVersionResponse), ("GetLog", .getLog), ("GetLogResponse", .getLogResponse),
   ("GetMonitoringReport", .getMonitoringReport), ("GetMonitoringReportResponse", .getMonitoringReportResponse), ("GetReport", .getReport),
   ("GetReportResponse", .getReportResponse), ("GetTransactionStatus", .getTransactionStatus),
   ("GetTransactionStatusResponse", .getTransactionStatusResponse), ("GetVariables", .getVariables),
   ("GetVariablesResponse", .getVariablesResponse), ("Heartbeat", .heartbeat), ("HeartbeatResponse", .heartbeatResponse),
   ("InstallCertificate", .installCertificate), ("InstallCertificateResponse", .installCertificateResponse),
   ("LogStatusNotification", .logStatusNotification), ("LogStatusNotificationResponse", .logStatusNotificationResponse),
   ("MeterValues", .meterValues), ("MeterValuesResponse", .meterValuesResponse), ("NotifyChargingLimit", .notifyChargingLimit),
   ("NotifyChargingLimitResponse", .notifyChargingLimitResponse), ("NotifyCustomerInformation", .notifyCustomerInformation),
   ("NotifyCustomerInformationResponse", .notifyCustomerInformationResponse), ("NotifyDisplayMessages", .notifyDisplayMessages),
   ("NotifyDisplayMessagesResponse", .notifyDisplayMessagesResponse), ("NotifyEVChargingNeeds", .notifyEVChargingNeeds),
   ("NotifyEVChargingNeedsResponse", .notifyEVChargingNeedsResponse), ("NotifyEVChargingSchedule", .notifyEVChargingSchedule),
   ("NotifyEVChargingScheduleResponse", .notifyEVChargingScheduleResponse), ("NotifyEvent", .notifyEvent),
   ("NotifyEventResponse", .notifyEventResponse), ("NotifyMonitoringReport", .notifyMonitoringReport),
   ("NotifyMonitoringReportResponse", .notifyMonitoringReportResponse), ("NotifyReport", .notifyReport),
   ("NotifyReportResponse", .notifyReportResponse), ("PublishFirmware", .publishFirmware),
   ("PublishFirmwareResponse", .publishFirmwareResponse), ("PublishFirmwareStatusNotification", .publishFirmwareStatusNotification),
   ("PublishFirmwareStatusNotificationResponse", .publishFirmwareStatusNotificationResponse),
   ("ReportChargingProfiles", .reportChargingProfiles), ("ReportChargingProfilesResponse", .reportChargingProfilesResponse),
   ("RequestStartTransaction", .requestStartTransaction), ("RequestStartTransactionResponse", .requestStartTransactionResponse),
   ("RequestStopTransaction", .requestStopTransaction), ("RequestStopTransactionResponse", .requestStopTransactionResponse),
   ("ReservationStatusUpdate", .reservationStatusUpdate), ("ReservationStatusUpdateResponse", .reservationStatusUpdateResponse),
   ("ReserveNow", .reserveNow), ("ReserveNowResponse", .reserveNowResponse), ("Reset", .reset), ("ResetResponse", .resetResponse),
   ("SecurityEventNotification", .securityEventNotification), ("SecurityEventNotificationResponse", .securityEventNotificationResponse),
   ("SendLocalList", .sendLocalList), ("SendLocalListResponse", .sendLocalListResponse), ("SetChargingProfile", .setChargingProfile),
   ("SetChargingProfileResponse", .setChargingProfileResponse), ("SetDisplayMessage", .setDisplayMessage),
   ("SetDisplayMessageResponse", .setDisplayMessageResponse), ("SetMonitoringBase", .setMonitoringBase),
   ("SetMonitoringBaseResponse", .setMonitoringBaseResponse), ("SetMonitoringLevel", .setMonitoringLevel),
   ("SetMonitoringLevelResponse", .setMonitoringLevelResponse), ("SetNetworkProfile", .setNetworkProfile),
   ("SetNetworkProfileResponse", .setNetworkProfileResponse), ("SetVariableMonitoring", .setVariableMonitoring),
   ("SetVariableMonitoringResponse", .setVariableMonitoringResponse), ("SetVariables", .setVariables),
   ("SetVariablesResponse", .setVariablesResponse), ("SignCertificate", .signCertificate),
   ("SignCertificateResponse", .signCertificateResponse), ("StatusNotification", .statusNotification),
   ("StatusNotificationResponse", .statusNotificationResponse), ("TransactionEvent", .transactionEvent),
   ("TransactionEventResponse", .transactionEventResponse), ("TriggerMessage", .triggerMessage),
   ("TriggerMessageResponse", .triggerMessageResponse), ("UnlockConnector", .unlockConnector),
   ("UnlockConnectorResponse", .unlockConnectorResponse), ("UnpublishFirmware", .unpublishFirmware),
   ("UnpublishFirmwareResponse", .unpublishFirmwareResponse), ("UpdateFirmware", .updateFirmware),
   ("UpdateFirmwareResponse", .updateFirmwareResponse), ("AdjustPeriodicEventStream", .adjustPeriodicEventStream),
   ("AdjustPeriodicEventStreamResponse", .adjustPeriodicEventStreamResponse), ("AFRRSignal", .afrrSignal),
   ("AFRRSignalResponse", .afrrSignalResponse), ("BatterySwap", .batterySwap), ("BatterySwapResponse", .batterySwapResponse),
   ("ChangeTransactionTariff", .changeTransactionTariff), ("ChangeTransactionTariffResponse", .changeTransactionTariffResponse),
   ("ClearDERControl", .clearDERControl), ("ClearDERControlResponse", .clearDERControlResponse), ("ClearTariffs", .clearTariffs),
   ("ClearTariffsResponse", .clearTariffsResponse), ("ClosePeriodicEventStream", .closePeriodicEventStream),
   ("ClosePeriodicEventStreamResponse", .closePeriodicEventStreamResponse), ("GetCRL", .getCRL), ("GetCRLResponse", .getCRLResponse),
   ("GetDERControl", .getDERControl), ("GetDERControlResponse", .getDERControlResponse),
   ("GetPeriodicEventStream", .getPeriodicEventStream), ("GetPeriodicEventStreamResponse", .getPeriodicEventStreamResponse),
   ("GetTariffs", .getTariffs), ("GetTariffsResponse", .getTariffsResponse), ("NotifyAllowedEnergyTransfer", .notifyAllowedEnergyTransfer),
   ("NotifyAllowedEnergyTransferResponse", .notifyAllowedEnergyTransferResponse), ("NotifyDERAlarm", .notifyDERAlarm),
   ("NotifyDERAlarmResponse", .notifyDERAlarmResponse), ("NotifyDERStartStop", .notifyDERStartStop),
   ("NotifyDERStartStopResponse", .notifyDERStartStopResponse), ("NotifyPeriodicEventStream", .notifyPeriodicEventStream),
   ("NotifyPeriodicEventStreamResponse", .notifyPeriodicEventStreamResponse), ("NotifyPriorityCharging", .notifyPriorityCharging),
   ("NotifyPriorityChargingResponse", .notifyPriorityChargingResponse), ("NotifySettlement", .notifySettlement),
   ("NotifySettlementResponse", .notifySettlementResponse), ("OpenPeriodicEventStream", .openPeriodicEventStream),
   ("OpenPeriodicEventStreamResponse", .openPeriodicEventStreamResponse), ("PullDynamicScheduleUpdate", .pullDynamicScheduleUpdate),
   ("PullDynamicScheduleUpdateResponse", .pullDynamicScheduleUpdateResponse), ("RequestBatterySwap", .requestBatterySwap),
   ("RequestBatterySwapResponse", .requestBatterySwapResponse), ("SetDefaultTariff", .setDefaultTariff),
   ("SetDefaultTariffResponse", .setDefaultTariffResponse), ("SetDERControl", .setDERControl),
   ("SetDERControlResponse", .setDERControlResponse), ("UpdateDynamicSchedule", .updateDynamicSchedule),
   ("UpdateDynamicScheduleResponse", .updateDynamicScheduleResponse), ("UsePriorityCharging", .usePriorityCharging),
   ("UsePriorityChargingResponse", .usePriorityChargingResponse), ("VatNumberValidation", .vatNumberValidation),
   ("VatNumberValidationResponse", .vatNumberValidationResponse), ("InternalError", .internalError)]

/-- `string_to_messagetype`; `none`: the exception `EnumConversionException`. -/
def A2.ofName (s : String) : Option A2 := (A2.names.find? (fun p => p.1 == s)).map Prod.snd

end Verif.Recv
