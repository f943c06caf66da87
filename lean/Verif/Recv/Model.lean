import Verif.Recv.Actions
import Verif.Wire.TypeModel

/-!
What the station does with a text received from the CSMS, up to the answers it sends: `MessageQueue::receive` (include/ocpp/common/message_queue.hpp
l.725-785), `message_callback` and `handle_message` of OCPP 1.6 (lib/ocpp/v16/charge_point_impl.cpp l.1336-1662) and of OCPP 2.x
(lib/ocpp/v2/charge_point.cpp l.645-1065), and the handlers of all requests.

A handler is given by its skeleton: where it answers, where it calls code of the application (callbacks, the module with the certificates, the
websocket), where exceptions may be thrown, where it branches, what it catches.  Conditions of branches are left out: both branches are possible.
All outcomes of a skeleton are listed by `outs`, so what is shown for all of them holds for the code; what is shown to be possible is shown with
handlers that have no such branch.  What the handlers compute is the subject of the other areas.

`json::parse` is not modelled: a received text is a JSON value, or nothing if it is not JSON.
-/

namespace Verif.Recv

open Verif.Wire (J)

/-! ### Skeletons -/

/-- Exceptions: of the JSON library, `EnumConversionException`, `StringConversionException`, `TimePointParseException`, `MalformedRpcMessage`,
`EvseOutOfRangeException`, `ConnectorOutOfRangeException`, `DeviceModelError`, `MessageTypeNotImplementedException`, errors of the database
(`QueryExecutionException` and the like), `std::out_of_range`, other exceptions of the library, exceptions of code of the application. -/
inductive Exn
  | json | enumConv | strConv | timePoint | malformed | evse | connector | deviceModel | notImpl | db | range | other | foreign
  deriving DecidableEq, Repr

/-- A skeleton: the end; an answer (a CALLERROR or a CALLRESULT); exceptions that may be thrown here; one that is thrown; a call of code of the
application; the end of the process; a branch; `try … catch` (the handler of the exceptions ends the function). -/
inductive Prog
  | done
  | answer (error : Bool) (k : Prog)
  | may (es : List Exn) (k : Prog)
  | raise (e : Exn)
  | ext (k : Prog)
  | die
  | choose (a b : Prog)
  | attempt (body : Prog) (catches : Exn → Bool) (handler k : Prog)

/-- How a function ends. -/
inductive End
  | ok
  | exn (e : Exn)
  | dead
  deriving DecidableEq, Repr

/-- What a function did: the answers (`true`: CALLERROR) and how it ended. -/
structure Outcome where
  answers : List Bool
  fin : End
  deriving DecidableEq, Repr

/-- What may go wrong: exceptions in code of the application; errors of the database; contents of messages that cannot be read, and connectors and other
things that do not exist. -/
structure Env where
  wild : Bool
  dbFails : Bool
  odd : Bool := true
  deriving DecidableEq, Repr

/-- Exceptions that are possible. -/
def Env.possible (v : Env) : Exn → Bool
  | .db | .deviceModel => v.dbFails
  | .foreign => v.wild
  | _ => v.odd

/-- `o` after the answers `l`. -/
def Outcome.after (l : List Bool) (o : Outcome) : Outcome := { o with answers := l ++ o.answers }

/-- All outcomes of a skeleton. -/
def outs (v : Env) : Prog → List Outcome
  | .done => [⟨[], .ok⟩]
  | .answer e k => (outs v k).map (Outcome.after [e])
  | .may es k => (es.filter v.possible).map (fun e => ⟨[], .exn e⟩) ++ outs v k
  | .raise e => [⟨[], .exn e⟩]
  | .ext k => (if v.wild then [⟨[], .exn .foreign⟩] else []) ++ outs v k
  | .die => [⟨[], .dead⟩]
  | .choose a b => outs v a ++ outs v b
  | .attempt body c h k => (outs v body).flatMap fun o =>
      match o.fin with
      | .ok => (outs v k).map (Outcome.after o.answers)
      | .exn e => if c e then (outs v h).map (Outcome.after o.answers) else [o]
      | .dead => [o]

/-- The conversion of the message to the struct of its type (`Call<T>`), what it throws: see `Verif.Wire`. -/
def parse (k : Prog) : Prog := .may [.json, .enumConv, .strConv, .timePoint] k

/-- An access to the database, the exception is not caught. -/
def db (k : Prog) : Prog := .may [.db] k

/-- The end, or `p`. -/
def opt (p : Prog) : Prog := .choose .done p

/-- The answer as last statement. -/
def reply : Prog := .answer false .done

/-- A CALLERROR as last statement. -/
def error : Prog := .answer true .done

/-- `catch (const QueryExecutionException&)`. -/
def isDb : Exn → Bool
  | .db => true
  | _ => false

/-! ### Handlers of OCPP 1.6 (lib/ocpp/v16/charge_point_impl.cpp) -/

/-- `handleChangeAvailabilityRequest`, l.1985-2019: errors of the database are caught; the changes are made after the answer. -/
def changeAvailability16 : Prog :=
  parse <| .attempt (db .done) isDb (.answer false <| opt <| .ext .done) <| .answer false <| opt <| .ext .done

/-- `handleChangeConfigurationRequest`, l.2021-2053, with `set_configuration_key_internal`, l.1846-1983: for AuthorizationKey and SecurityProfile the
answer is sent before the connection is closed or opened again, and not repeated; otherwise it is sent after the callbacks for changed keys. -/
def changeConfiguration16 : Prog :=
  parse <| .may [.json, .range, .other] <| .choose (.answer false <| .ext <| .ext .done) (.ext reply)

/-- `handleClearCacheRequest`, l.2055-2076. -/
def clearCache16 : Prog :=
  parse <| .choose reply <| .attempt (db .done) isDb error reply

/-- `handle_data_transfer_pnc_trigger_message`, l.4010-4035. -/
def pncTrigger : Prog :=
  .may [.json] <| .answer false <| opt <| .ext .done

/-- `handle_data_transfer_pnc_certificate_signed`, l.4037-4102: everything is in a `try`, also what follows the answer. -/
def pncCertificateSigned : Prog :=
  .attempt (.may [.json, .enumConv, .strConv, .timePoint, .other] <| .ext <| .answer false <| .ext .done) (fun _ => true) reply .done

/-- `handle_data_transfer_pnc_get_installed_certificates`, l.4104-4155; `handle_data_transfer_delete_certificate`, l.4157-4185;
`handle_data_transfer_install_certificate`, l.4187-4212. -/
def pncOther : Prog :=
  .attempt (.may [.json, .enumConv, .strConv, .timePoint, .other] <| .ext .done) (fun _ => true) reply reply

/-- `handleDataTransferRequest`, l.2078-2125. -/
def dataTransfer16 : Prog :=
  parse <| .choose pncTrigger <| .choose pncCertificateSigned <| .choose pncOther <| .choose reply <| .ext reply

/-- `handleGetConfigurationRequest`, l.2127-2133. -/
def getConfiguration16 : Prog :=
  parse <| .may [.json, .other] reply

/-- `handleRemoteStartTransactionRequest`, l.2135-2275. -/
def remoteStart16 : Prog :=
  parse <| .choose reply <| .ext <| .choose reply <| db <| .choose reply <| .answer false <| .ext .done

/-- `handleRemoteStopTransactionRequest`, l.2277-2294. -/
def remoteStop16 : Prog :=
  parse <| .answer false <| opt <| .ext .done

/-- `handleResetRequest`, l.2296-2340.  `allowed`: the answer of `is_reset_allowed_callback`; `before`: a reset was accepted earlier.  The new
thread is assigned to `reset_thread` after the answer; that member is nowhere joined, so after an earlier reset the assignment calls
`std::terminate`. -/
def reset16 (allowed before : Bool) : Prog :=
  parse <| .ext <| .answer false <| if allowed then (if before then .die else .ext .done) else .done

/-- `handleUnlockConnectorRequest`, l.2438-2461.  `n`: number of connectors; `c`: the connector of the request.  After the answer NotSupported and
similar ones `transaction_active` is called with that connector; it is an index into a vector with `n + 1` elements (v16/transaction.cpp
l.148-155, l.271-273).  The message without `connectorId` is not converted. -/
def unlockConnector16 (n : Nat) (c : Option Int) : Prog :=
  match c with
  | none => .raise .json
  | some c =>
    if c = 0 ∨ c < 0 ∨ (n : Int) < c then
      .may [.json, .strConv] <| .answer false <| if c < 0 ∨ (n : Int) < c then .raise .range else .done
    else .may [.json, .strConv] <| .ext <| .answer false <| opt <| .ext .done

/-- `handleSetChargingProfileRequest`, l.2470-2523. -/
def setChargingProfile16 : Prog :=
  parse <| db <| .may [.other] <| .answer false <| opt <| .ext .done

/-- `handleGetCompositeScheduleRequest`, l.2525-2562. -/
def getCompositeSchedule16 : Prog :=
  parse <| .may [.other] reply

/-- `handleClearChargingProfileRequest`, l.2564-2592. -/
def clearChargingProfile16 : Prog :=
  parse <| db <| .answer false <| opt <| .ext .done

/-- `handleTriggerMessageRequest`, l.2594-2690: the requested message is queued after the answer. -/
def triggerMessage16 : Prog :=
  parse <| .answer false <| opt .done

/-- `handleGetDiagnosticsRequest`, l.2692-2703; `handleUpdateFirmwareRequest`, l.2705-2713; `handleGetLogRequest`, l.2986-2998;
`handleCancelReservationRequest`, l.3132-3143. -/
def byCallback16 : Prog :=
  parse <| .choose reply <| .ext reply

/-- `handleExtendedTriggerMessageRequest`, l.2715-2810: a certificate request is generated after the answer. -/
def extendedTrigger16 : Prog :=
  parse <| .answer false <| opt <| .ext .done

/-- `handleCertificateSignedRequest`, l.2874-2904; `handleInstallCertificateRequest`, l.2955-2984: a security event after the answer. -/
def certificate16 : Prog :=
  parse <| .ext <| .answer false <| opt <| .ext .done

/-- `handleGetInstalledCertificateIdsRequest`, l.2906-2938; `handleDeleteCertificateRequest`, l.2940-2953. -/
def certificateIds16 : Prog :=
  parse <| .may [.json, .enumConv] <| .ext <| .may [.enumConv] reply

/-- `handleSignedUpdateFirmware`, l.3000-3026. -/
def signedUpdateFirmware16 : Prog :=
  parse <| .ext <| .answer false <| opt <| .ext .done

/-- `handleReserveNowRequest`, l.3112-3130. -/
def reserveNow16 : Prog :=
  parse <| .may [.range] <| .choose reply <| .ext reply

/-- `handleSendLocalListRequest`, l.3145-3197: errors of the database are caught. -/
def sendLocalList16 : Prog :=
  parse <| .attempt (db .done) isDb reply reply

/-- `handleGetLocalListVersionRequest`, l.3199-3226. -/
def getLocalListVersion16 : Prog :=
  parse <| .choose reply <| .attempt (db .done) isDb error reply

/-- Conversion of a CALL as if it was a result (`CallResult<T>`): the element with index 2 is a string, `at` of a string throws. -/
def resultOfCall : Prog := .raise .json

/-- `handleStartTransactionResponse`, `handleStopTransactionResponse`, `handleHeartbeatResponse`, `handleBootNotificationResponse` (l.1664-1760,
l.2342-2468): no answers. -/
def result16 : Prog :=
  parse <| .may [.db, .range, .other] <| .ext .done

/-- What a handler needs of the station and of the message: the number of connectors, whether the application allows a reset, whether one
was accepted before, the connector of the request. -/
structure Ctx where
  connectors : Nat
  resetAllowed : Bool
  resetBefore : Bool
  connector : Option Int
  deriving DecidableEq, Repr

/-- `handle_message` (l.1482-1662) for a CALL.  `StopTransactionResponse` converts both the result, whose members are optional, and the message as
a request. -/
def handle16 (x : Ctx) : A16 → Prog
  | .certificateSigned => certificate16
  | .changeAvailability => changeAvailability16
  | .changeConfiguration => changeConfiguration16
  | .clearCache => clearCache16
  | .dataTransfer => dataTransfer16
  | .getConfiguration => getConfiguration16
  | .remoteStartTransaction => remoteStart16
  | .remoteStopTransaction => remoteStop16
  | .reset => reset16 x.resetAllowed x.resetBefore
  | .unlockConnector => unlockConnector16 x.connectors x.connector
  | .setChargingProfile => setChargingProfile16
  | .getCompositeSchedule => getCompositeSchedule16
  | .clearChargingProfile => clearChargingProfile16
  | .triggerMessage => triggerMessage16
  | .getDiagnostics => byCallback16
  | .updateFirmware => byCallback16
  | .getInstalledCertificateIds => certificateIds16
  | .deleteCertificate => certificateIds16
  | .installCertificate => certificate16
  | .getLog => byCallback16
  | .signedUpdateFirmware => signedUpdateFirmware16
  | .reserveNow => reserveNow16
  | .cancelReservation => byCallback16
  | .extendedTriggerMessage => extendedTrigger16
  | .sendLocalList => sendLocalList16
  | .getLocalListVersion => getLocalListVersion16
  | .startTransactionResponse => resultOfCall
  | .heartbeatResponse => resultOfCall
  | .stopTransactionResponse => result16
  | _ => .done

/-- `handle_message` (l.1482-1662) for a result or an error. -/
def handleResult16 : A16 → Prog
  | .startTransactionResponse | .stopTransactionResponse | .heartbeatResponse => result16
  | _ => .done

/-! ### Handlers of OCPP 2.x (lib/ocpp/v2/functional_blocks) -/

/-- An element of the list NetworkConfigurationPriority that is a number outside of the range of `int`, for which `std::stoi` throws
`std::out_of_range`: see `Verif.Con.validPriority`.  `never`: there is none; `first`: the first element of the first variable of the request is such
a number, and there is a stored profile; `perhaps`: some other element. -/
inductive BigSlot | never | first | perhaps
  deriving DecidableEq, Repr

/-- `handle_set_variables_req` (provisioning.cpp l.227-244, l.625-715). -/
def setVariables2 (b : BigSlot) : Prog :=
  parse <| db <|
    match b with
    | .never => .answer false <| db <| .ext .done
    | .first => .raise .range
    | .perhaps => .may [.range] <| .answer false <| db <| .ext .done

/-- `handle_get_variables_req` (provisioning.cpp l.246-276). -/
def getVariables2 : Prog :=
  parse <| db <| .choose error <| .choose error <| db reply

/-- `handle_get_base_report_req` (provisioning.cpp l.278-290). -/
def getBaseReport2 : Prog :=
  parse <| .answer false <| db .done

/-- `handle_get_report_req` (provisioning.cpp l.292-352). -/
def getReport2 : Prog :=
  parse <| db <| .choose error <| .choose error <| db <| .answer false <| opt <| db .done

/-- `handle_reset_req` (provisioning.cpp l.455-545). -/
def reset2 : Prog :=
  parse <| .may [.evse] <| .ext <| db <| .answer false <| opt <| db <| .ext .done

/-- `handle_set_network_profile_req` (provisioning.cpp l.354-453). -/
def setNetworkProfile2 : Prog :=
  parse <| .choose reply <| db <| .choose reply <| .ext <| .choose reply <| .may [.json, .enumConv, .strConv] <| db <| .choose reply <| .ext reply

/-- `handle_change_availability_req` (availability.cpp l.97-168). -/
def changeAvailability2 : Prog :=
  parse <| .choose reply <| db <| .answer false <| opt <| db <| .ext .done

/-- `handle_get_transaction_status` (transaction.cpp l.338-359); `handle_unlock_connector` (remote_transaction_control.cpp l.100-120);
`handle_message` of DataTransfer (data_transfer.cpp l.13-32); `handle_get_log_req` (diagnostics.cpp l.173-178); `handle_cancel_reservation_callback`
(reservation.cpp l.174-204); `handle_delete_certificate_req` (security.cpp l.410-450); `handle_get_installed_certificate_ids_req` (security.cpp
l.343-381); `handle_clear_display_message` and `handle_set_display_message` (display_message.cpp l.76-165). -/
def byCallback2 : Prog :=
  parse <| db <| .choose reply <| .ext reply

/-- `handle_remote_start_transaction_request` (remote_transaction_control.cpp l.122-210): the application is asked before the answer. -/
def remoteStart2 : Prog :=
  parse <| db <| .may [.evse] <| .choose reply <| db <| .ext <| reply

/-- `handle_remote_stop_transaction_request` (remote_transaction_control.cpp l.212-228). -/
def remoteStop2 : Prog :=
  parse <| .ext reply

/-- `handle_trigger_message` (remote_transaction_control.cpp l.230-435): the requested message is queued after the answer. -/
def triggerMessage2 : Prog :=
  parse <| .choose reply <| db <| .answer false <| opt <| db <| .ext .done

/-- `handle_customer_information_req` (diagnostics.cpp l.180-220). -/
def customerInformation2 : Prog :=
  parse <| db <| .ext <| .answer false <| opt <| db <| .ext .done

/-- `handle_set_monitoring_base_req`, `handle_set_monitoring_level_req`, `handle_clear_variable_monitoring_req` (diagnostics.cpp l.222-286,
l.361-375); without monitoring the exception of l.47-71. -/
def monitoring2 (available : Bool) : Prog :=
  if available then parse <| .may [.db, .deviceModel] reply else .raise .notImpl

/-- `handle_set_variable_monitoring_req` (diagnostics.cpp l.288-319). -/
def setVariableMonitoring2 (available : Bool) : Prog :=
  if available then parse <| db <| .choose error <| .choose error <| .may [.db, .deviceModel] reply else .raise .notImpl

/-- `handle_get_monitoring_report_req` (diagnostics.cpp l.321-359). -/
def getMonitoringReport2 (available : Bool) : Prog :=
  if available then parse <| db <| .choose error <| .may [.db, .deviceModel] <| .answer false <| opt <| db .done else .raise .notImpl

/-- `handle_clear_cache_req`, `handle_send_local_authorization_list_req`, `handle_get_local_authorization_list_version_req` (authorization.cpp
l.420-560). -/
def lists2 : Prog :=
  parse <| db <| .choose reply <| .attempt (db .done) isDb reply reply

/-- `handle_firmware_update_req` (firmware_update.cpp l.120-160). -/
def updateFirmware2 : Prog :=
  parse <| .ext <| .answer false <| opt <| .ext .done

/-- `handle_reserve_now_request` (reservation.cpp l.64-172). -/
def reserveNow2 : Prog :=
  parse <| db <| .may [.evse] <| .choose reply <| db <| .ext reply

/-- `handle_certificate_signed_req`, `handle_install_certificate_req` (security.cpp l.234-290, l.383-408). -/
def certificate2 : Prog :=
  parse <| db <| .choose reply <| .ext <| .answer false <| opt <| db <| .ext .done

/-- `handle_set_charging_profile_req`, `handle_clear_charging_profile_req`, `handle_get_charging_profiles_req`,
`handle_get_composite_schedule_req` (smart_charging.cpp l.1069-1215, l.1263-1300). -/
def chargingProfile2 : Prog :=
  parse <| db <| .choose reply <| .may [.evse] <| db <| .answer false <| opt <| db <| .ext .done

/-- `handle_get_display_message` (display_message.cpp l.40-74). -/
def getDisplayMessages2 : Prog :=
  parse <| .choose reply <| .ext <| .answer false <| opt <| db .done

/-- `handle_costupdated_req` (tariff_and_cost.cpp l.184-262). -/
def costUpdated2 : Prog :=
  parse <| db <| .choose reply <| .may [.json, .enumConv, .strConv, .timePoint] <| db <| .ext <| .answer false <| opt <| .ext .done

/-- `handle_notify_allowed_energy_transfer` (v21/functional_blocks/bidirectional.cpp l.27-130): if the version is not 2.1 the function returns without
an answer. -/
def notifyAllowedEnergyTransfer2 (v21 : Bool) : Prog :=
  if v21 then parse <| .choose reply <| db <| .choose reply <| .choose reply <| .ext reply else parse .done

/-- Handlers of results: `handle_boot_notification_response`, `handle_heartbeat_response`, `handle_transaction_event_response`,
`handle_sign_certificate_response`, `handle_notify_ev_charging_needs_response`: no answers. -/
def result2 : Prog :=
  parse <| db <| .ext .done

/-- What a handler needs: which optional blocks there are (v2/charge_point.cpp l.540-640), whether monitoring is available, whether the version is
2.1, the elements of NetworkConfigurationPriority. -/
structure Ctx2 where
  reservation : Bool
  smartCharging : Bool
  displayMessage : Bool
  tariffAndCost : Bool
  bidirectional : Bool
  monitoring : Bool
  v21 : Bool
  bigSlot : BigSlot
  deriving DecidableEq, Repr

/-- A handler of an optional block; without it `send_not_implemented_error` (l.1253-1260), which answers a CALL. -/
def block (b : Bool) (p : Prog) : Prog := if b then p else error

/-- The `switch` of `handle_message` (v2/charge_point.cpp l.645-880) for a CALL. -/
def switch2 (x : Ctx2) : A2 → Prog
  | .bootNotificationResponse => resultOfCall
  | .setVariables => setVariables2 x.bigSlot
  | .getVariables => getVariables2
  | .getBaseReport => getBaseReport2
  | .getReport => getReport2
  | .reset => reset2
  | .setNetworkProfile => setNetworkProfile2
  | .changeAvailability => changeAvailability2
  | .heartbeatResponse => resultOfCall
  | .transactionEventResponse => result2
  | .getTransactionStatus => byCallback2
  | .requestStartTransaction => remoteStart2
  | .requestStopTransaction => remoteStop2
  | .unlockConnector => byCallback2
  | .triggerMessage => triggerMessage2
  | .dataTransfer => byCallback2
  | .getLog => byCallback2
  | .customerInformation => customerInformation2
  | .setMonitoringBase => monitoring2 x.monitoring
  | .setMonitoringLevel => monitoring2 x.monitoring
  | .setVariableMonitoring => setVariableMonitoring2 x.monitoring
  | .getMonitoringReport => getMonitoringReport2 x.monitoring
  | .clearVariableMonitoring => monitoring2 x.monitoring
  | .clearCache => lists2
  | .sendLocalList => lists2
  | .getLocalListVersion => lists2
  | .updateFirmware => updateFirmware2
  | .reserveNow => block x.reservation reserveNow2
  | .cancelReservation => block x.reservation byCallback2
  | .certificateSigned => certificate2
  | .signCertificateResponse => resultOfCall
  | .getInstalledCertificateIds => byCallback2
  | .installCertificate => certificate2
  | .deleteCertificate => byCallback2
  | .setChargingProfile => block x.smartCharging chargingProfile2
  | .clearChargingProfile => block x.smartCharging chargingProfile2
  | .getChargingProfiles => block x.smartCharging chargingProfile2
  | .getCompositeSchedule => block x.smartCharging chargingProfile2
  | .notifyEVChargingNeedsResponse => block x.smartCharging resultOfCall
  | .getDisplayMessages => block x.displayMessage getDisplayMessages2
  | .setDisplayMessage => block x.displayMessage byCallback2
  | .clearDisplayMessage => block x.displayMessage byCallback2
  | .costUpdated => block x.tariffAndCost costUpdated2
  | .notifyAllowedEnergyTransfer => block x.bidirectional (notifyAllowedEnergyTransfer2 x.v21)
  | _ => error

/-- `handle_message` (v2/charge_point.cpp l.645-885) for a CALL: `MessageTypeNotImplementedException` is answered with NotImplemented. -/
def handle2 (x : Ctx2) (a : A2) : Prog := .attempt (switch2 x a) (fun e => e == .notImpl) error .done

/-- `handle_message` for a result or an error: `send_not_implemented_error` does nothing. -/
def handleResult2 : A2 → Prog
  | .bootNotificationResponse | .heartbeatResponse | .transactionEventResponse | .signCertificateResponse | .notifyEVChargingNeedsResponse => result2
  | _ => .done

/-! ### Reception -/

/-- `MessageTypeId` (include/ocpp/common/call_types.hpp l.22-28). -/
inductive Kind | call | result | error | unknown
  deriving DecidableEq, Repr

/-- Comparison of a JSON value with an integer: numbers are compared as numbers. -/
def isNum (j : J) (n : Int) : Bool :=
  match j with
  | .int i => i == n
  | .dec q => q == (n : Rat)
  | _ => false

/-- `getMessageTypeId`, message_queue.hpp l.220-235. -/
def kindOf : List J → Kind
  | [] => .unknown
  | t :: _ => if isNum t 2 then .call else if isNum t 3 then .result else if isNum t 4 then .error else .unknown

/-- `getMessageId`, message_queue.hpp l.214-219: a string of at most 36 bytes (`CiString<36>`). -/
def idOf (l : List J) : Except Exn String :=
  if l.length < 2 then .error .malformed
  else match (l[1]? : Option J) with
    | some (.str s) => if s.utf8ByteSize ≤ 36 then .ok s else .error .strConv
    | _ => .error .json

/-- An `EnhancedMessage`, as far as it is needed: kind, id, the action (of results: of the request they belong to), the whole message. -/
structure Msg (A : Type) where
  kind : Kind
  id : String
  act : A
  elems : List J

/-- The queue: the id of the request whose answer has to be sent next (`next_message_to_send`), and the own request waiting for a result: its id and
its action. -/
structure Q where
  hold : Option String
  inFlight : Option (String × String)
  deriving DecidableEq, Repr

/-- The message type of a result: the action of the request in flight with `Response` appended, if the ids are equal (l.751-785); of an error, and of
a result for another id: `InternalError`, the initial value. -/
def resultType {A : Type} (ofName : String → Option A) (internal : A) (q : Q) (kind : Kind) (id : String) : Option A :=
  match kind, q.inFlight with
  | .result, some (i, a) => if i = id then ofName (a ++ "Response") else some internal
  | _, _ => some internal

/-- `receive`, message_queue.hpp l.725-785: the queue afterwards and the message, or the exception.  Repetitions of a request after an error are
those of `Verif.MessageQueue`; here the request in flight is removed. -/
def receive {A : Type} (ofName : String → Option A) (internal : A) (q : Q) : Option J → Q × Except Exn (Msg A)
  | some (.arr l) =>
    match idOf l with
    | .error e => (q, .error e)
    | .ok id =>
      match kindOf l with
      | .call =>
        match (l[2]? : Option J) with
        | some (.str s) =>
          match ofName s with
          | none => (q, .error .enumConv)
          | some a => ({ q with hold := some id }, .ok ⟨.call, id, a, l⟩)
        | _ => (q, .error .json)
      | .unknown => (q, .ok ⟨.unknown, id, internal, l⟩)
      | k =>
        match resultType ofName internal q k id with
        | none => ({ q with hold := none }, .error .enumConv)
        | some a =>
          ({ hold := none
             inFlight := if q.inFlight.map Prod.fst = some id then none else q.inFlight }, .ok ⟨k, id, a, l⟩)
  | _ => (q, .error .json)

/-- An answer on the wire: to which id, whether it is a CALLERROR. -/
structure Sent where
  id : String
  error : Bool
  deriving DecidableEq, Repr

/-- `push_call_result`, `push_call_error` (l.660-694): the queue stops waiting if this is the answer it waits for. -/
def push (q : Q) (x : Sent) : Q :=
  if q.hold = some x.id then { q with hold := none } else q

/-- `message_callback` as a whole: what is sent, the queue afterwards, whether the process has ended. -/
structure Res where
  sent : List Sent
  q : Q
  dead : Bool
  deriving DecidableEq, Repr

/-- The answers are sent. -/
def Res.of (q : Q) (sent : List Sent) (dead : Bool) : Res :=
  { sent := sent
    q := sent.foldl push q
    dead := dead }

/-- The `catch` clauses around `handle_message`: the error that is sent after exception `e`, or the end of the process. -/
def finish {A : Type} (caught : Exn → Bool) (always : Exn → Bool) (m : Msg A) (q : Q) (o : Outcome) : Res :=
  let l := o.answers.map (Sent.mk m.id)
  match o.fin with
  | .ok => .of q l false
  | .dead => .of q l true
  | .exn e =>
    if caught e then
      if m.kind = .call ∨ always e = true then .of q (l ++ [⟨m.id, true⟩]) false else .of q l false
    else .of q l true

/-! ### OCPP 1.6 -/

/-- `ChargePointConnectionState` (include/ocpp/v16/types.hpp). -/
inductive Conn | disconnected | connected | rejected | pending | booted
  deriving DecidableEq, Repr

/-- `RegistrationStatus`. -/
inductive Reg | accepted | pending | rejected
  deriving DecidableEq, Repr

/-- `SupportedFeatureProfiles` that add messages. -/
inductive Feature | core | firmware | localList | remoteTrigger | reservation | smartCharging | security
  deriving DecidableEq, Repr

/-- The messages of a feature profile that are received (v16/charge_point_configuration.cpp l.177-215). -/
def Feature.messages : Feature → List A16
  | .core => [.authorizeResponse, .bootNotificationResponse, .changeAvailability, .changeConfiguration, .clearCache, .dataTransfer,
      .dataTransferResponse, .getConfiguration, .heartbeatResponse, .meterValuesResponse, .remoteStartTransaction, .remoteStopTransaction, .reset,
      .startTransactionResponse, .statusNotificationResponse, .stopTransactionResponse, .unlockConnector]
  | .firmware => [.getDiagnostics, .diagnosticsStatusNotificationResponse, .firmwareStatusNotificationResponse, .updateFirmware]
  | .localList => [.getLocalListVersion, .sendLocalList]
  | .remoteTrigger => [.triggerMessage]
  | .reservation => [.cancelReservation, .reserveNow]
  | .smartCharging => [.clearChargingProfile, .getCompositeSchedule, .setChargingProfile]
  | .security => [.certificateSigned, .deleteCertificate, .extendedTriggerMessage, .getInstalledCertificateIds, .getLog, .installCertificate,
      .logStatusNotificationResponse, .securityEventNotificationResponse, .signCertificateResponse, .signedFirmwareStatusNotificationResponse,
      .signedUpdateFirmware]

/-- `getSupportedMessageTypesReceiving` (v16/charge_point_configuration.cpp l.177-215, l.330-360): the messages of the profiles, and three always. -/
def supported (fs : List Feature) (a : A16) : Bool :=
  fs.any (fun f => f.messages.contains a) || [A16.getLocalListVersion, .sendLocalList, .reserveNow].contains a

/-- The station, as far as `message_callback` reads it. -/
structure S16 where
  conn : Conn
  reg : Reg
  features : List Feature
  connectors : Nat
  resetAllowed : Bool
  resetBefore : Bool
  env : Env
  q : Q

/-- The member `connectorId` of the payload of a CALL, if it is an integer. -/
def connectorOf (l : List J) : Option Int :=
  match (l[3]? : Option J) with
  | some (.obj fields) =>
    match fields.find? (fun p => p.1 == "connectorId") with
    | some (_, .int c) => some c
    | _ => none
  | _ => none

/-- What the `switch` over the state of the connection does (l.1385-1442); `none`: nothing, and the queue stops waiting
(`reset_next_message_to_send`). -/
def dispatch16 (s : S16) (m : Msg A16) : Option Prog :=
  let x : Ctx := ⟨s.connectors, s.resetAllowed, s.resetBefore, connectorOf m.elems⟩
  let handle := if m.kind = .call then handle16 x m.act else handleResult16 m.act
  let boot := if m.kind = .call then resultOfCall else result16
  match s.conn with
  | .disconnected => some .done
  | .connected => if m.act = .bootNotificationResponse then some boot else if m.kind = .call then none else some .done
  | .rejected =>
    if s.reg = .rejected then
      if m.act = .bootNotificationResponse then some boot else if m.kind = .call then none else some .done
    else some .done
  | .pending =>
    if s.reg = .pending then
      if m.act = .bootNotificationResponse then some boot
      else if m.act = .remoteStartTransaction ∨ m.act = .remoteStopTransaction then some reply
      else some handle
    else some .done
  | .booted => some handle

/-- `message_callback` (l.1336-1480): all results that are possible. -/
def callback16 (s : S16) (t : Option J) : List Res :=
  match receive A16.ofName .internalError s.q t with
  | (q, .error _) => [.of q [⟨"-1", true⟩] false]
  | (q, .ok m) =>
    if supported s.features m.act = false then
      [.of q (if m.kind = .call then [⟨m.id, true⟩] else []) false]
    else match dispatch16 s m with
      | none => [.of { q with hold := none } [] false]
      | some p => (outs s.env p).map (finish (fun _ => true) (fun _ => false) m q)

/-! ### OCPP 2.x -/

/-- The station, as far as `message_callback` reads it; `profiles`: whether there are stored network connection profiles. -/
structure S2 where
  reg : Reg
  reservation : Bool
  smartCharging : Bool
  displayMessage : Bool
  tariffAndCost : Bool
  bidirectional : Bool
  monitoring : Bool
  v21 : Bool
  profiles : Bool
  env : Env
  q : Q

/-- A member of an object. -/
def field (k : String) : J → Option J
  | .obj l => (l.find? (fun p => p.1 == k)).map Prod.snd
  | _ => none

/-- A member of an object that is a string. -/
def textField (k : String) (j : J) : Option String :=
  match field k j with
  | some (.str s) => some s
  | _ => none

/-- The value of a sequence of digits, up to the first other character. -/
def digits : Int → List Char → Int
  | n, c :: r => if c.isDigit then digits (10 * n + (c.toNat - 48 : Nat)) r else n
  | n, [] => n

/-- Whether `std::stoi` throws `std::out_of_range`: after spaces and a sign a number outside of the range of `int`. -/
def beyondInt (t : List Char) : Bool :=
  match t.dropWhile Char.isWhitespace with
  | '-' :: r => decide (2147483648 < digits 0 r)
  | '+' :: r => decide (2147483647 < digits 0 r)
  | r => decide (2147483647 < digits 0 r)

/-- Parts of a text between commas (`split_string`, common/utils.cpp). -/
def commaParts : List Char → List (List Char)
  | [] => [[]]
  | c :: r =>
    if c = ',' then [] :: commaParts r
    else match commaParts r with
      | [] => [[c]]
      | p :: ps => (c :: p) :: ps

/-- The elements of NetworkConfigurationPriority in an element of `setVariableData`; for other variables there are none. -/
def slotsOf (j : J) : List (List Char) :=
  match (field "component" j).bind (textField "name"), (field "variable" j).bind (textField "name"), textField "attributeValue" j with
  | some "OCPPCommCtrlr", some "NetworkConfigurationPriority", some v => commaParts v.toList
  | _, _, _ => []

/-- Numbers beyond the range of `int` in the request (see `BigSlot`). -/
def bigSlotOf (profiles : Bool) (l : List J) : BigSlot :=
  match l[3]?.bind (field "setVariableData") with
  | some (.arr data) =>
    if profiles = false then .never
    else if (data.head?.map slotsOf).any (fun p => p.head?.any beyondInt) then .first
    else if data.any (fun d => (slotsOf d).any beyondInt) then .perhaps
    else .never
  | _ => .never

/-- What the handlers need. -/
def ctx2 (s : S2) (m : Msg A2) : Ctx2 :=
  { reservation := s.reservation
    smartCharging := s.smartCharging
    displayMessage := s.displayMessage
    tariffAndCost := s.tariffAndCost
    bidirectional := s.bidirectional
    monitoring := s.monitoring
    v21 := s.v21
    bigSlot := bigSlotOf s.profiles m.elems }

/-- Requests that are handled while the registration is pending (l.970-976). -/
def allowedPending : A2 → Bool
  | .getVariables | .setVariables | .getBaseReport | .getReport | .notifyReportResponse | .triggerMessage => true
  | _ => false

/-- What `message_callback` does after the reception (l.957-1018). -/
def dispatch2 (s : S2) (m : Msg A2) : Prog :=
  let handle := if m.kind = .call then handle2 (ctx2 s m) m.act else handleResult2 m.act
  let boot := if m.kind = .call then resultOfCall else result2
  match s.reg with
  | .accepted => handle
  | .pending =>
    if m.act = .bootNotificationResponse then boot
    else if allowedPending m.act then handle
    else if m.act = .requestStartTransaction ∨ m.act = .requestStopTransaction then reply
    else error
  | .rejected =>
    if m.act = .bootNotificationResponse then boot
    else if m.act = .triggerMessage then
      if textField "requestedMessage" (m.elems.getD 3 .null) = some "BootNotification" then parse handle else parse error
    else error

/-- The exceptions caught around it (l.1019-1065); `MessageTypeNotImplementedException` is caught by `handle_message`. -/
def caught2 : Exn → Bool
  | .evse | .connector | .strConv | .enumConv | .timePoint | .deviceModel | .json => true
  | _ => false

/-- `DeviceModelError` is answered whatever the message was (l.1053-1056). -/
def always2 : Exn → Bool
  | .deviceModel => true
  | _ => false

/-- `message_callback` (v2/charge_point.cpp l.887-1065): all results that are possible.  The exceptions of `receive` and messages of unknown kind are
answered with the id -1. -/
def callback2 (s : S2) (t : Option J) : List Res :=
  match receive A2.ofName .internalError s.q t with
  | (q, .error _) => [.of q [⟨"-1", true⟩] false]
  | (q, .ok m) =>
    if m.kind = .unknown then [.of q [⟨"-1", true⟩] false]
    else (outs s.env (dispatch2 s m)).map (finish caught2 always2 m q)

end Verif.Recv
