/-!
Functions of the application and optional parts of the station.

OCPP 2.x: `all_callbacks_valid` (lib/ocpp/v2/charge_point_callbacks.cpp l.7-116), the constructor and `initialize` of `ChargePoint` (lib/ocpp/v2/charge_point.cpp
l.62-91, 421-660), the dispatch of the requests of optional parts (l.692-741), and every place of lib/ocpp/v2 and lib/ocpp/v21 at which a function of the application is
called or an optional part is used.  OCPP 1.6: the places of lib/ocpp/v16/charge_point_impl.cpp at which registered functions are called.

Simplified: what else a handler does is left out; conditions that do not depend on functions or optional parts are parameters of the event, among them the answers of the
application.  What a called function does is not modelled.
-/

namespace Verif.Blocks

/-- What a member of `Callbacks` holds: an optional without value, an empty `std::function`, or a function. -/
inductive Cb
  | absent | empty | given
deriving DecidableEq, Repr

/-- The members of `Callbacks` (include/ocpp/v2/charge_point_callbacks.hpp l.46-186). -/
inductive Name
  | isResetAllowed | reset | stopTransaction | pauseCharging | connectorStatusChanged | getLog | unlockConnector | remoteStart | isReservationForToken | updateFirmware
  | securityEvent | setChargingProfiles
  | variableChanged | validateNetworkProfile | configureNetworkProfile | timeSync | bootNotification | ocppMessages | csStatusChanged | evseStatusChanged
  | getCustomerInformation | clearCustomerInformation | allConnectorsUnavailable | dataTransfer | transactionEvent | transactionEventResponse
  | clearDisplayMessage | getDisplayMessage | setDisplayMessage | runningCost | reserveNow | cancelReservation | allowedEnergyTransfer
  | connectionStateChanged | tariffMessage
deriving DecidableEq, Repr

/-- Members that are `std::function`s, not optional (charge_point_callbacks.hpp l.46-49, 75-95, 113, 117). -/
def Name.plain : Name → Bool
  | .isResetAllowed | .reset | .stopTransaction | .pauseCharging | .connectorStatusChanged | .getLog | .unlockConnector | .remoteStart | .isReservationForToken
  | .updateFirmware | .securityEvent | .setChargingProfiles => true
  | _ => false

/-- `Callbacks`.  `typed`: a `std::function` that is not optional is there, if only empty. -/
structure Callbacks where
  get : Name → Cb
  typed : ∀ n, n.plain = true → get n ≠ .absent

/-- The variables of the device model that say what is available when the station is constructed: DisplayMessageCtrlr, TariffCostCtrlr (Cost, Tariff), ReservationCtrlr,
V2XChargingCtrlr of any EVSE, ISO15118Ctrlr, SmartChargingCtrlr. -/
structure Features where
  display : Bool
  cost : Bool
  tariff : Bool
  reservation : Bool
  v2x : Bool
  iso15118 : Bool
  smart : Bool
deriving DecidableEq, Repr

/-- Members that `all_callbacks_valid` wants to be functions in any case (l.10-16). -/
def required : List Name :=
  [.isResetAllowed, .reset, .stopTransaction, .pauseCharging, .connectorStatusChanged, .getLog, .unlockConnector, .remoteStart, .isReservationForToken, .updateFirmware,
   .securityEvent, .setChargingProfiles]

/-- Members that may be without value but not hold an empty function (l.17-38). -/
def checkedIfPresent : List Name :=
  [.variableChanged, .validateNetworkProfile, .configureNetworkProfile, .timeSync, .bootNotification, .ocppMessages, .csStatusChanged, .evseStatusChanged,
   .getCustomerInformation, .clearCustomerInformation, .allConnectorsUnavailable, .dataTransfer, .transactionEvent, .transactionEventResponse]

/-- `!has_value() or value() == nullptr` (l.43-48 and others). -/
def Callbacks.lacks (c : Callbacks) (n : Name) : Bool := decide (c.get n ≠ .given)

/-- `has_value()`. -/
def Callbacks.has (c : Callbacks) (n : Name) : Bool := decide (c.get n ≠ .absent)

/-- `all_callbacks_valid` (l.7-116). -/
def allValid (c : Callbacks) (f : Features) : Bool :=
  required.all (fun n => decide (c.get n ≠ .empty)) &&
  checkedIfPresent.all (fun n => !c.has n || decide (c.get n ≠ .empty)) &&
  !(f.display && (c.lacks .clearDisplayMessage || c.lacks .getDisplayMessage || c.lacks .setDisplayMessage)) &&
  !(f.cost && c.lacks .runningCost) &&
  !(f.tariff && c.lacks .setDisplayMessage) &&
  !(f.reservation && (c.lacks .reserveNow || c.lacks .cancelReservation)) &&
  !(f.v2x && f.iso15118 && c.lacks .allowedEnergyTransfer)

/-- The optional parts (`this->reservation`, `this->display_message`, `this->smart_charging`, `this->bidirectional`). -/
inductive Part
  | reservation | display | smart | bidirectional
deriving DecidableEq, Repr

/-- Which of them exist. -/
structure Parts where
  reservation : Bool
  display : Bool
  smart : Bool
  bidirectional : Bool
deriving DecidableEq, Repr

def Parts.has (p : Parts) : Part → Bool
  | .reservation => p.reservation
  | .display => p.display
  | .smart => p.smart
  | .bidirectional => p.bidirectional

/-- `initialize` (charge_point.cpp l.542-553, 563-577, 587-592, 624-636). -/
def makeParts (c : Callbacks) (f : Features) : Parts :=
  { reservation := f.reservation && c.has .reserveNow && c.has .cancelReservation
    display := f.display && c.has .getDisplayMessage && c.has .setDisplayMessage && c.has .clearDisplayMessage
    smart := f.smart
    bidirectional := f.v2x }

/-- The constructor (l.62-91): `none` is the exception `std::invalid_argument`. -/
def construct (c : Callbacks) (f : Features) : Option Parts :=
  if allValid c f then some (makeParts c f) else none

/-- Variables of the device model as they are when something happens. -/
structure Now where
  reservationAvailable : Bool
  reservationEnabled : Bool
  costAvailable : Bool
  costEnabled : Bool
  tariffAvailable : Bool
  tariffEnabled : Bool
  smartEnabled : Bool
  v21 : Bool
deriving DecidableEq, Repr

/-- What happens: messages of the CSMS and calls of the application.

* `txEnded resetDue`: the end of a transaction, and whether a scheduled reset is then due;
* `txAnswer personal total ended refused stop limit`: an answer to TransactionEvent: with a personal message, with a total cost, for the event Ended, with a token that is
  refused for a running transaction; StopTxOnInvalidId, and whether MaxEnergyOnInvalidId has a value;
* `limitReached`: the energy of a refused token is used up;
* `heartbeatAnswer sync`, `bootAnswer accepted sync`: the time source is the heartbeat;
* `setNetworkProfile lower`: with a lower security profile;
* `resetRequest evse allowed evseAllows onIdle active`: for an EVSE; the application allows it; AllowReset of the EVSE; OnIdle; the EVSEs that have transactions, as far as
  the request looks at them;
* `setVariable accepted`; `unlock valid active`; `updateFirmware certificate`; `securityNotice internal`;
* `customerInformation who report clear`: whether a person is named;
* `allUnavailable`: a change of availability is done and all connectors are inoperative;
* `remoteStart evse available reserved txProfile`: for an existing EVSE, with a free connector, reserved for another token, with a TxProfile;
* `remoteStop found`; `reserve checks`; `setDisplay checks`; `setProfile valid`; `clearProfile found`; `needsAnswer rejected v2x`; `allowedTransfer checks`;
* `needs`: the application reports the needs of the vehicle;
* `logged toCallback`: a message is logged, LogMessagesFormat contains `callback`;
* `schedules`: the application asks for composite schedules; `appReserves`: it reports reservations. -/
inductive Event
  | csStatus | evseStatus | connectorStatus
  | txEvent | txEnded (resetDue : Bool) | txAnswer (personal total ended refused stop limit : Bool) | limitReached
  | heartbeatAnswer (sync : Bool) | bootAnswer (accepted sync : Bool)
  | setNetworkProfile (lower : Bool) | resetRequest (evse allowed evseAllows onIdle : Bool) (active : List Nat) | setVariable (accepted : Bool)
  | getLog | unlock (valid active : Bool) | updateFirmware (certificate : Bool) | securityNotice (internal : Bool) | customerInformation (who report clear : Bool)
  | dataTransferRequest | allUnavailable
  | remoteStart (evse available reserved txProfile : Bool) | remoteStop (found : Bool)
  | reserve (checks : Bool) | cancelReserve
  | getDisplay | setDisplay (checks : Bool) | clearDisplay
  | setProfile (valid : Bool) | clearProfile (found : Bool) | getProfiles | scheduleRequest | needs | needsAnswer (rejected v2x : Bool)
  | costUpdated | allowedTransfer (checks : Bool)
  | connected | disconnected | networkAttempt | logged (toCallback : Bool) | schedules | appReserves
deriving DecidableEq, Repr

/-- What a handler does that can fail here: call the function of a member, or use an optional part. -/
inductive Act
  | call (n : Name) | use (p : Part)
deriving DecidableEq, Repr

/-- `if (callback.has_value()) callback.value()(…)`. -/
def Callbacks.ifHas (c : Callbacks) (n : Name) : List Act := if c.has n then [.call n] else []

/-- `if (callback != nullptr) callback(…)`, also for an optional with a value. -/
def Callbacks.ifGiven (c : Callbacks) (n : Name) : List Act := if c.get n = .given then [.call n] else []

/-- `a` under the condition `b`. -/
def onlyIf (b : Bool) (a : List Act) : List Act := if b then a else []

/-- `is_cost_enabled` (tariff_and_cost.cpp l.274-280). -/
def Now.cost (w : Now) : Bool := w.costAvailable && w.costEnabled

/-- `is_tariff_enabled` (l.265-272). -/
def Now.tariff (w : Now) : Bool := w.tariffAvailable && w.tariffEnabled

/-- `handle_cost_and_tariff` (tariff_and_cost.cpp l.34-182). -/
def costAndTariff (c : Callbacks) (w : Now) (personal total : Bool) : List Act :=
  onlyIf (personal && w.tariff && !w.cost) (c.ifGiven .tariffMessage) ++ onlyIf (w.cost && total) (c.ifHas .runningCost)

/-- `handle_reset_req` (provisioning.cpp l.455-537): the application is asked, transactions are stopped, the station is reset. -/
def resetActs (evse allowed evseAllows onIdle : Bool) (active : List Nat) : List Act :=
  let accepted := allowed && (!evse || evseAllows)
  .call .isResetAllowed ::
    (onlyIf (accepted && !onIdle) (active.map (fun _ => .call .stopTransaction)) ++
     onlyIf (accepted && (!onIdle || active.isEmpty)) [.call .reset])

/-- The places at which something of the application or of an optional part is used, in the order of the code:
`trigger_callbacks…` of the ComponentStateManager (component_state_manager.cpp l.120-163, charge_point.cpp l.436-445), `transaction_event_req` (transaction.cpp l.250-252),
`on_transaction_finished` (l.90-190), `handle_transaction_event_response` (l.267-335), `check_max_energy_on_invalid_id` (evse.cpp l.394-410),
`handle_heartbeat_response` (availability.cpp l.170-180), `handle_boot_notification_response` (provisioning.cpp l.172-225), `handle_set_network_profile_req` (l.354-393),
`handle_reset_req`, `handle_set_variables…` (l.598-621), `handle_get_log_req` (diagnostics.cpp l.173-178), `handle_unlock_connector` (remote_transaction_control.cpp
l.99-121), `handle_firmware_update_req` (firmware_update.cpp l.120-157), `security_event_notification_req` (security.cpp l.154-156), `handle_customer_information_req`
(diagnostics.cpp l.180-220, 377-411), `handle_data_transfer_req` (data_transfer.cpp l.17-29), `handle_scheduled_change_availability_requests` (availability.cpp l.74-77)
and its like in firmware_update.cpp l.176-179, `handle_remote_start_transaction_request` (remote_transaction_control.cpp l.122-211, 435-444),
`handle_remote_stop_transaction_request` (l.213-229), `handle_reserve_now_request` (reservation.cpp l.64-170), `handle_cancel_reservation_callback` (l.174-193), the handlers
of display_message.cpp (l.40-155), `handle_set_charging_profile_req` (smart_charging.cpp l.1070-1125), `handle_clear_charging_profile_req` (l.1127-1153),
`on_ev_charging_needs` (charge_point.cpp l.417-419), `handle_notify_ev_charging_needs_response` (smart_charging.cpp l.1217-1262), `handle_costupdated_req`
(tariff_and_cost.cpp l.184-232), `handle_notify_allowed_energy_transfer` (bidirectional.cpp l.37-127), `websocket_connected_callback` and
`websocket_disconnected_callback` (charge_point.cpp l.1115-1118, 1132-1135), `handle_configure_network_connection_profile_callback` (connectivity_manager.cpp l.258-266),
`charge_point` and `central_system` of the log (charge_point.cpp l.284-286, ocpp_logging.cpp l.316-333), `get_composite_schedule` (charge_point.cpp l.1215-1238),
`on_reserved` and others (l.212-214, 326-336, 411-415). -/
def acts (c : Callbacks) (p : Parts) (w : Now) : Event → List Act
  | .csStatus => c.ifHas .csStatusChanged
  | .evseStatus => c.ifHas .evseStatusChanged
  | .connectorStatus => [.call .connectorStatusChanged]
  | .txEvent => c.ifHas .transactionEvent
  | .txEnded resetDue => c.ifHas .transactionEvent ++ [.use .smart] ++ onlyIf resetDue [.call .reset]
  | .txAnswer personal total ended refused stop limit =>
    c.ifHas .transactionEventResponse ++ costAndTariff c w personal total ++
      onlyIf (!ended && refused) (if stop then [.call .stopTransaction] else onlyIf (!limit) [.call .pauseCharging])
  | .limitReached => [.call .pauseCharging]
  | .heartbeatAnswer sync => onlyIf sync (c.ifHas .timeSync)
  | .bootAnswer accepted sync => onlyIf (accepted && sync) (c.ifHas .timeSync) ++ c.ifHas .bootNotification
  | .setNetworkProfile lower => onlyIf (!lower) (c.ifHas .validateNetworkProfile)
  | .resetRequest evse allowed evseAllows onIdle active => resetActs evse allowed evseAllows onIdle active
  | .setVariable accepted => onlyIf accepted (c.ifHas .variableChanged)
  | .getLog => [.call .getLog]
  | .unlock valid active => onlyIf (valid && !active) [.call .unlockConnector]
  | .updateFirmware certificate => onlyIf certificate [.call .updateFirmware]
  | .securityNotice internal => onlyIf internal (c.ifGiven .securityEvent)
  | .customerInformation who report clear =>
    onlyIf (who && (report || clear)) (onlyIf report (c.ifHas .getCustomerInformation) ++ onlyIf clear (c.ifHas .clearCustomerInformation))
  | .dataTransferRequest => c.ifHas .dataTransfer
  | .allUnavailable => c.ifHas .allConnectorsUnavailable
  | .remoteStart evse available reserved txProfile =>
    onlyIf evse (onlyIf p.reservation [.use .reservation, .call .isReservationForToken] ++ onlyIf (w.smartEnabled && txProfile) [.use .smart] ++
      onlyIf (available && !(p.reservation && reserved)) [.call .remoteStart])
  | .remoteStop found => onlyIf found [.call .stopTransaction]
  | .reserve checks =>
    onlyIf p.reservation (.use .reservation :: onlyIf (w.reservationAvailable && w.reservationEnabled && checks) (c.ifGiven .reserveNow))
  | .cancelReserve => onlyIf p.reservation (.use .reservation :: onlyIf (w.reservationAvailable && w.reservationEnabled) (c.ifGiven .cancelReservation))
  | .getDisplay => onlyIf p.display [.use .display, .call .getDisplayMessage]
  | .setDisplay checks => onlyIf p.display (.use .display :: onlyIf checks [.call .setDisplayMessage])
  | .clearDisplay => onlyIf p.display [.use .display, .call .clearDisplayMessage]
  | .setProfile valid => onlyIf p.smart (.use .smart :: onlyIf valid [.call .setChargingProfiles])
  | .clearProfile found => onlyIf p.smart (.use .smart :: onlyIf found [.call .setChargingProfiles])
  | .getProfiles => onlyIf p.smart [.use .smart]
  | .scheduleRequest => onlyIf p.smart [.use .smart]
  | .needs => [.use .smart]
  | .needsAnswer rejected v2x => onlyIf p.smart (.use .smart :: onlyIf (rejected && w.v21 && v2x) [.call .stopTransaction])
  | .costUpdated => onlyIf w.cost (c.ifHas .runningCost)
  | .allowedTransfer checks => onlyIf p.bidirectional (.use .bidirectional :: onlyIf (w.v21 && checks) (c.ifHas .allowedEnergyTransfer))
  | .connected => c.ifHas .connectionStateChanged
  | .disconnected => c.ifHas .connectionStateChanged
  | .networkAttempt => c.ifHas .configureNetworkProfile
  | .logged toCallback => onlyIf toCallback (c.ifGiven .ocppMessages)
  | .schedules => onlyIf p.smart [.use .smart]
  | .appReserves => onlyIf p.reservation [.use .reservation]

/-- How it fails: `std::bad_function_call`, `std::bad_optional_access`, or undefined behaviour: a part that does not exist is used. -/
inductive Failure
  | emptyFunction (n : Name) | noValue (n : Name) | missingPart (p : Part)
deriving DecidableEq, Repr

/-- The functions of the application that were called, and the failure, if any. -/
structure Result where
  called : List Name
  failure : Option Failure
deriving DecidableEq, Repr

/-- Execution of the places one after the other. -/
def exec (c : Callbacks) (p : Parts) : List Act → Result
  | [] => ⟨[], none⟩
  | .call n :: as =>
    match c.get n with
    | .given => ⟨n :: (exec c p as).called, (exec c p as).failure⟩
    | .empty => ⟨[], some (.emptyFunction n)⟩
    | .absent => ⟨[], some (.noValue n)⟩
  | .use k :: as => if p.has k then exec c p as else ⟨[], some (.missingPart k)⟩

/-- What an event leads to on a station that was constructed with `c`. -/
def happens (c : Callbacks) (p : Parts) (w : Now) (e : Event) : Result := exec c p (acts c p w e)

/-- `handle_message` (charge_point.cpp l.692-741): requests of the CSMS for an optional part, which are answered with NotImplemented if it does not exist. -/
def Event.part : Event → Option Part
  | .reserve _ | .cancelReserve => some .reservation
  | .getDisplay | .setDisplay _ | .clearDisplay => some .display
  | .setProfile _ | .clearProfile _ | .getProfiles | .scheduleRequest => some .smart
  | .allowedTransfer _ => some .bidirectional
  | _ => none

/-- Whether the request is answered with NotImplemented (l.694-698, 712-716, 721-725, 736-740). -/
def notImplemented (p : Parts) (e : Event) : Bool :=
  match e.part with
  | some k => !p.has k
  | none => false

/-! ### OCPP 1.6 -/

/-- Functions that an application can register with a station of OCPP 1.6 (charge_point_impl.cpp l.4718-4880), as far as they are called. -/
inductive Name16
  | enableEvse | disableEvse | pauseCharging | provideToken | stopTransaction | reserveNow | cancelReservation | unlockConnector | isResetAllowed | reset | setSystemTime
  | bootNotificationResponse | signalSetChargingProfiles | uploadDiagnostics | updateFirmware | signedUpdateFirmware | allConnectorsUnavailable | uploadLogs
  | setConnectionTimeout | connectionStateChanged | get15118EvCertificateResponse | transactionStarted | transactionStopped | transactionUpdated | securityEvent
  | isTokenReserved | sessionCost | tariffMessage | dataTransfer | configurationKeyChanged
deriving DecidableEq, Repr

/-- What happens to a station of OCPP 1.6.  Requests of the CSMS: `remoteStart asked obtainable rejectedProfile`, `remoteStop found`, `resetRequest allowed active`,
`unlock valid answer active stopIfNot` (`answer`: the answer of the application is NotSupported), `getDiagnostics`, `updateFw`, `getLog`, `signedUpdate certificate invalid` (the application finds the certificate invalid),
`reserve ok`, `cancelReserve`, `dataTransferRequest known`, `changeConfiguration accepted`, `changeAvailability operative connectors`, `setProfile valid`, `clearProfile found`,
`setUserPrice`, `runningCost`.  Answers: `startAnswer known refused stopOnInvalid`, `stopAnswer`, `heartbeatAnswer`, `bootAnswer accepted`.  Calls and
events of the application and the connection: `stopAll active`, `evCertificate accepted`, `connected offline` and `disconnected offline` (profiles are ignored offline), `txStarted`, `txStopped profile unlock`,
`securityNotice internal`, `started connectors` (operative or not), `allUnavailable connectors running`: for a firmware update, with a transaction running
or not. -/
inductive Event16
  | remoteStart (asked obtainable rejectedProfile : Bool) | remoteStop (found : Bool) | resetRequest (allowed : Bool) (active : List Nat)
  | unlock (valid answer active stopIfNot : Bool) | getDiagnostics | updateFw | getLog | signedUpdate (certificate invalid : Bool) | reserve (ok : Bool) | cancelReserve
  | dataTransferRequest (known : Bool) | changeConfiguration (accepted : Bool) | changeAvailability (operative : Bool) (connectors : List Nat) | setProfile (valid : Bool)
  | clearProfile (found : Bool) | setUserPrice | runningCost
  | startAnswer (known refused stopOnInvalid : Bool) | heartbeatAnswer | bootAnswer (accepted : Bool)
  | stopAll (active : List Nat) | evCertificate (accepted : Bool) | connected (offline : Bool) | disconnected (offline : Bool) | txStarted | txStopped (profile unlock : Bool) | securityNotice (internal : Bool)
  | started (connectors : List Bool) | allUnavailable (connectors : List Nat) (running : Bool)
deriving DecidableEq, Repr

/-- What a handler does: call a function, send the answer, or send an answer with a member that was never given a value. -/
inductive Act16
  | call (n : Name16) | answer | answerUninitialised
deriving DecidableEq, Repr

/-- `if (callback != nullptr) callback(…)`; `r` says which functions are registered. -/
def ifReg (r : Name16 → Bool) (n : Name16) : List Act16 := if r n then [.call n] else []

def onlyIf16 (b : Bool) (a : List Act16) : List Act16 := if b then a else []

/-- The places at which registered functions are called (charge_point_impl.cpp): `handleRemoteStartTransactionRequest` (l.2135-2244), `handleRemoteStopTransactionRequest`
(l.2277-2294), `handleResetRequest` with its thread, which is put before the stopping of the transactions (l.2296-2340), `handleUnlockConnectorRequest` (l.2438-2462), `handleGetDiagnosticsRequest` (l.2692-2703),
`handleUpdateFirmwareRequest` (l.2705-2713), `handleGetLogRequest` (l.2986-2998), `handleSignedUpdateFirmware` (l.3000-3021), `handleReserveNowRequest` (l.3112-3130),
`handleCancelReservationRequest` (l.3132-3143), `handleDataTransferRequest` (l.2078-2125), `set_configuration_key_internal` (l.1982-1992), `execute_connectors_availability_change`
(l.1795-1825), `handleSetChargingProfileRequest` (l.2470-2520), `handleClearChargingProfileRequest` (l.2564-2592), `handle_set_user_price` (l.3238-3319),
`handle_set_session_cost` (l.3321-3392), `handleStartTransactionResponse` (l.2342-2391), `handleHeartbeatResponse` (l.2464-2468), `handleBootNotificationResponse`
(l.1684-1732), `stop_all_transactions` (l.1251-1258), `data_transfer_pnc_get_15118_ev_certificate` (l.3887-3945), the functions of the connection (l.296-345),
`start_transaction` (l.4329-4331), `on_transaction_stopped` and `stop_transaction` (l.4454-4505), `securityEventNotification` (l.3049-3051), `init_state_machine` and `connect_websocket` (l.365-443),
`change_all_connectors_to_unavailable_for_firmware_update` (l.1235-1244). -/
def acts16 (r : Name16 → Bool) : Event16 → List Act16
  | .remoteStart asked obtainable rejectedProfile =>
    onlyIf16 asked (ifReg r .isTokenReserved) ++ [.answer] ++ onlyIf16 (obtainable && !rejectedProfile) [.call .provideToken]
  | .remoteStop found => .answer :: onlyIf16 found [.call .stopTransaction]
  | .resetRequest allowed active =>
    if r .isResetAllowed && r .reset then
      [.call .isResetAllowed, .answer] ++ onlyIf16 allowed (.call .reset :: active.map (fun _ => .call .stopTransaction))
    else [.answer]
  | .unlock valid answer active stopIfNot =>
    onlyIf16 valid (ifReg r .unlockConnector) ++ [.answer] ++
      onlyIf16 ((!valid || !r .unlockConnector || answer) && active && stopIfNot) [.call .stopTransaction]
  | .getDiagnostics => ifReg r .uploadDiagnostics ++ [.answer]
  | .updateFw => ifReg r .updateFirmware ++ [.answer]
  | .getLog => if r .uploadLogs then [.call .uploadLogs, .answer] else [.answerUninitialised]
  | .signedUpdate certificate invalid =>
    if certificate then [.call .signedUpdateFirmware, .answer] ++ onlyIf16 invalid (ifReg r .securityEvent) else .answer :: ifReg r .securityEvent
  | .reserve ok => onlyIf16 ok (ifReg r .reserveNow) ++ [.answer]
  | .cancelReserve => ifReg r .cancelReservation ++ [.answer]
  | .dataTransferRequest known => onlyIf16 (!known) (ifReg r .dataTransfer) ++ [.answer]
  | .changeConfiguration accepted => onlyIf16 accepted (ifReg r .configurationKeyChanged) ++ [.answer]
  | .changeAvailability operative connectors =>
    .answer :: (connectors.map (fun _ => if operative then ifReg r .enableEvse else ifReg r .disableEvse)).flatten
  | .setProfile valid => .answer :: onlyIf16 valid (ifReg r .signalSetChargingProfiles)
  | .clearProfile found => .answer :: onlyIf16 found (ifReg r .signalSetChargingProfiles)
  | .setUserPrice => ifReg r .tariffMessage ++ [.answer]
  | .runningCost => ifReg r .sessionCost ++ [.answer]
  | .startAnswer known refused stopOnInvalid =>
    onlyIf16 known (onlyIf16 refused (.call .pauseCharging :: onlyIf16 stopOnInvalid [.call .stopTransaction]) ++ ifReg r .transactionUpdated)
  | .heartbeatAnswer => ifReg r .setSystemTime
  | .bootAnswer accepted => onlyIf16 accepted (ifReg r .setSystemTime) ++ ifReg r .bootNotificationResponse
  | .stopAll active => active.map (fun _ => .call .stopTransaction)
  | .evCertificate accepted => onlyIf16 accepted [.call .get15118EvCertificateResponse]
  | .connected offline => ifReg r .connectionStateChanged ++ onlyIf16 offline (ifReg r .signalSetChargingProfiles)
  | .disconnected offline => ifReg r .connectionStateChanged ++ onlyIf16 offline (ifReg r .signalSetChargingProfiles)
  | .txStarted => ifReg r .transactionStarted
  | .txStopped profile unlock => onlyIf16 profile (ifReg r .signalSetChargingProfiles) ++ onlyIf16 unlock (ifReg r .unlockConnector) ++ ifReg r .transactionStopped
  | .securityNotice internal => onlyIf16 internal (ifReg r .securityEvent)
  | .started connectors =>
    (connectors.map (fun operative => if operative then ifReg r .enableEvse else ifReg r .disableEvse)).flatten ++ ifReg r .setConnectionTimeout
  | .allUnavailable connectors running =>
    (connectors.map (fun _ => ifReg r .disableEvse)).flatten ++ onlyIf16 (!running) (ifReg r .allConnectorsUnavailable)

/-- What becomes of it: the functions called, the answers sent (`true`: a CALLERROR), whether `std::bad_function_call` was thrown, and whether a value was sent that was
never set. -/
structure Result16 where
  called : List Name16
  answers : List Bool
  thrown : Option Name16
  uninitialised : Bool
deriving DecidableEq, Repr

/-- Execution up to the first exception. -/
def exec16 (r : Name16 → Bool) : List Act16 → Result16
  | [] => ⟨[], [], none, false⟩
  | .answer :: as => { exec16 r as with answers := false :: (exec16 r as).answers }
  | .answerUninitialised :: as => { exec16 r as with answers := false :: (exec16 r as).answers, uninitialised := true }
  | .call n :: as => if r n then { exec16 r as with called := n :: (exec16 r as).called } else ⟨[], [], some n, false⟩

/-- Messages that are requests of the CSMS. -/
def Event16.request : Event16 → Bool
  | .remoteStart .. | .remoteStop _ | .resetRequest .. | .unlock .. | .getDiagnostics | .updateFw | .getLog | .signedUpdate .. | .reserve _ | .cancelReserve
  | .dataTransferRequest _ | .changeConfiguration _ | .changeAvailability .. | .setProfile _ | .clearProfile _ | .setUserPrice | .runningCost => true
  | _ => false

/-- `message_callback` (l.1443-1477): an exception during the handling of a request is answered with a CALLERROR. -/
def happens16 (r : Name16 → Bool) (e : Event16) : Result16 :=
  let x := exec16 r (acts16 r e)
  if e.request && x.thrown.isSome then { x with answers := x.answers ++ [true] } else x

end Verif.Blocks
