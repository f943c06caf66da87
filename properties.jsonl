{"id": "C01", "title": "Transaction-related messages reach the CSMS in creation order", "statement": "Whatever the application, the network, the CSMS, the timers and power cuts do, the sequence of transaction-related CALLs put on the wire is sorted by the order in which the application handed them to the queue: a later one is never transmitted before or in between transmissions of an earlier one, including retransmissions and restarts.", "quantifier": "every finite history of queue operations: pushes, worker iterations with succeeding or failing sends, responses, call errors, timeouts, pause/resume, registration, crash and restart", "why_tests_cant": "The interleavings of worker, websocket, timers and power cuts are unbounded; a test fixes one.", "anchors": ["include/ocpp/common/message_queue.hpp: MessageQueue::start, push_call, push_call_async, receive, handle_timeout_or_callerror, get_persisted_messages_from_db"]}
{"id": "C02", "title": "At most one CALL of the station is outstanding", "statement": "Between two CALLs put on the wire the first one has been answered (CALLRESULT or CALLERROR with its id), has timed out, or the station restarted; no second CALL is sent while one is unanswered and not timed out.", "quantifier": "every history of queue operations", "why_tests_cant": "Requires all schedules of the worker thread against the receive thread and the timeout timer.", "anchors": ["include/ocpp/common/message_queue.hpp: MessageQueue::start, receive, reset_in_flight"]}
{"id": "C03", "title": "Transaction-related messages survive crashes until they are answered", "statement": "At every crash point (also in the middle of an operation, between two database writes) the restarted station queues again, in the original order, every transaction-related message that was accepted and neither answered, nor given up after the configured attempts, nor evicted as a periodic update by the overflow rule; nothing else is re-queued as transaction-related except messages whose answer was being processed.", "quantifier": "every history and every crash point inside it", "why_tests_cant": "Crash points are unbounded and each has to be combined with each history.", "anchors": ["include/ocpp/common/message_queue.hpp: add_to_transaction_message_queue, handle_call_result, handle_timeout_or_callerror, get_persisted_messages_from_db", "lib/ocpp/common/database/database_handler_common.cpp"]}
{"id": "C04", "title": "Number of transmissions of one message is bounded", "statement": "Between two restarts a message other than BootNotification is transmitted at most max(1, transaction_message_attempts) times if it is transaction-related or queued offline, and at most once otherwise.", "quantifier": "every history with a fixed attempts setting", "why_tests_cant": "Retries are spread over unbounded histories of timeouts and reconnects.", "anchors": ["include/ocpp/common/message_queue.hpp: start, handle_timeout_or_callerror"]}
{"id": "C05", "title": "Messages are given up only after the configured number of transmissions", "statement": "A transaction-related message is given up for lack of an answer only after it has been transmitted transaction_message_attempts times. (Violated: a send that fails because the connection is down also uses up an attempt.)", "quantifier": "every history", "why_tests_cant": "Needs a particular interleaving of connection loss and timeouts that tests do not enumerate.", "anchors": ["include/ocpp/common/message_queue.hpp: start (l.518), handle_timeout_or_callerror (l.834)"]}
{"id": "C06", "title": "Queue overflow keeps memory bounded and never evicts essential transaction messages", "statement": "After every accepted push the number of queued messages is at most the configured threshold, or there is no normal message left and every remaining periodic-update message is one of the two newest transaction messages; eviction only removes normal messages and periodic updates, never StartTransaction/StopTransaction/Started/Ended/SecurityEvent messages, and one eviction pass never removes two neighbours.", "quantifier": "all queue contents and thresholds", "why_tests_cant": "Combinatorial in queue contents and threshold.", "anchors": ["include/ocpp/common/message_queue.hpp: check_queue_sizes, drop_messages_from_normal_message_queue, drop_update_messages_from_transactional_message_queue"]}
{"id": "C07", "title": "Every awaited answer is delivered at most once", "statement": "The future returned for an asynchronous call is fulfilled at most once, and once fulfilled the message is neither queued nor outstanding any more. (Violated when a send fails for a message that is not at the front of the normal queue: another message, possibly the BootNotification, is dropped instead, and the failed one is sent again and fulfilled twice, which throws.)", "quantifier": "every history", "why_tests_cant": "Needs the send failure to coincide with a delayed or stalled message at the front of the queue.", "anchors": ["include/ocpp/common/message_queue.hpp: start (l.536-547), handle_call_result, handle_timeout_or_callerror, push_call_async"]}
{"id": "C08", "title": "A station that is not accepted stays silent", "statement": "Until the CSMS has accepted the BootNotification, no CALL other than BootNotification is transmitted unless it was dispatched as triggered by the CSMS; persisted messages of a previous run are held back too.", "quantifier": "every history from start-up", "why_tests_cant": "Quantifies over all dispatch orders and restarts.", "anchors": ["lib/ocpp/v2/message_dispatcher.cpp", "lib/ocpp/v16/message_dispatcher.cpp", "include/ocpp/common/message_queue.hpp: get_message_transmission_priority, allowed_to_send_message"]}
{"id": "C09", "title": "Only the answer to the outstanding call completes it", "statement": "A CALLRESULT or CALLERROR whose id differs from the id of the outstanding call, or that arrives when nothing is outstanding, neither completes nor retries nor drops any message, fulfils no future, and does not touch the database.", "quantifier": "all states and all received ids", "why_tests_cant": "Ids and states are unbounded.", "anchors": ["include/ocpp/common/message_queue.hpp: receive"]}
{"id": "C10", "title": "The reply to a CSMS request is sent before the station's next own CALL", "statement": "After a CSMS request was received no own CALL is transmitted until the reply to it was sent. (Violated: any CALLRESULT/CALLERROR received in between lifts the block; proved for histories without one.)", "quantifier": "every history", "why_tests_cant": "Interleaving of CSMS request, own outstanding call and its answer.", "anchors": ["include/ocpp/common/message_queue.hpp: receive, start, push_call_result, push_call_error"]}
{"id": "C11", "title": "Timeout and call-error handling never dereference a missing outstanding call", "statement": "Handling a timeout or CALLERROR always finds an outstanding call. (Violated by the schedule in which the answer arrives after the timer fired but before its handler takes the lock; proved for schedules in which firing and handling are not separated.)", "quantifier": "all schedules of timer, websocket and worker threads", "why_tests_cant": "A race whose window tests cannot hit reliably.", "anchors": ["include/ocpp/common/message_queue.hpp: receive (l.767-772), handle_timeout_or_callerror"]}
{"id": "C12", "title": "A sendable message never waits for an unrelated event", "statement": "Whenever the queue is running, connected, idle, not held back and contains a message allowed to be sent, the worker is able to send without a further push. (Violated: becoming Accepted does not re-arm the worker after it went to sleep with only stalled messages.)", "quantifier": "every reachable state", "why_tests_cant": "Lost wake-ups show only in particular schedules.", "anchors": ["include/ocpp/common/message_queue.hpp: start (wait predicate, l.497-500), set_registration_status_accepted"]}
{"id": "C13", "title": "Delayed resume is cancelled by a later disconnect", "statement": "A resume timer scheduled for an earlier connection never un-pauses the queue after a later disconnect; while paused nothing is transmitted from the queue.", "quantifier": "every history of pause, resume and timer expirations, including expirations already in progress when cancelled", "why_tests_cant": "Timer cancellation races.", "anchors": ["include/ocpp/common/message_queue.hpp: pause, resume, resume_now"]}
{"id": "C14", "title": "Offline StopTransaction carries the id assigned by the CSMS", "statement": "If a transaction id is registered for a queued StopTransaction message before it is transmitted, the first transmission after that carries this id and no other message is changed; MeterValues registered under a StartTransaction get the id in that StartTransaction's answer.", "quantifier": "all queue contents and maps", "why_tests_cant": "All combinations of queued messages and ids.", "anchors": ["include/ocpp/common/message_queue.hpp: start (l.520-525), add_stopped_transaction_id, add_meter_value_message_id, notify_start_transaction_handled"]}
{"id": "C15", "title": "Composite schedule (1.6) takes at each instant the highest stack level valid then", "statement": "For every instant of the requested window the schedule computed for one purpose has the limit of the period valid at that instant with the highest stack level, and no limit if none is valid.", "quantifier": "all sets of profile periods, all windows, all instants", "why_tests_cant": "Continuum of instants and unbounded sets of profiles.", "anchors": ["lib/ocpp/v16/profile.cpp: generate_profile_from_periods, calculate_profile_entry"]}
{"id": "C16", "title": "Composite schedule (1.6) never exceeds the station limit", "statement": "For every instant of the window the composite limit is the lowest of the limits valid at that instant: the transaction limit (the TxProfile if one is valid, else the TxDefaultProfile; only while a transaction runs or is simulated) and the ChargePointMaxProfile limit, converted to the requested unit; it is the configured default only if none is valid. For the whole station the transaction limits of the connectors are summed (default for connectors without one) and capped by the ChargePointMaxProfile.", "quantifier": "all profile sets and instants", "why_tests_cant": "Continuum of instants.", "anchors": ["lib/ocpp/v16/profile.cpp: calculate_composite_schedule, merge_tx_profile_with_tx_default_profile, merge_profiles_by_lowest_limit", "lib/ocpp/v16/smart_charging.cpp"]}
{"id": "C17", "title": "Composite schedules are well formed", "statement": "The period list of a composite schedule starts at 0, has strictly increasing start offsets inside the duration, and consecutive periods differ.", "quantifier": "all inputs", "why_tests_cant": "All inputs.", "anchors": ["lib/ocpp/v16/profile.cpp", "lib/ocpp/v2/profile.cpp"]}
{"id": "C18", "title": "Recurring profiles repeat exactly", "statement": "For a Daily/Weekly profile the start of the recurrence in force at time t is the unique instant congruent to startSchedule modulo the recurrence period in the half-open period ending at t.", "quantifier": "all times and start schedules", "why_tests_cant": "Unbounded times.", "anchors": ["lib/ocpp/v16/profile.cpp: calculate_start", "lib/ocpp/v2/profile.cpp: calculate_start"]}
{"id": "C19", "title": "Composite schedule (2.x) respects every valid constraint", "statement": "At each instant the 2.x composite limit of an EVSE is the lowest of the ChargingStationExternalConstraints, ChargingStationMaxProfile and transaction limits in force (the configured default if there is none), in the requested unit, so it exceeds none of them; the 2.0.1 composite limit of the station is the lowest of the summed EVSE limits and of the station limit.", "quantifier": "all profile sets without values for single phases, all windows, units and instants", "why_tests_cant": "Continuum of instants.", "anchors": ["lib/ocpp/v2/profile.cpp", "lib/ocpp/v2/functional_blocks/smart_charging.cpp: calculate_composite_schedule"]}
{"id": "C20", "title": "Accepted charging profiles are stored consistently (2.x)", "statement": "After any history of SetChargingProfile/ClearChargingProfile requests no two stored profiles of the same EVSE, purpose and stack level with different ids have overlapping validity; TxProfiles of one transaction have distinct stack levels.", "quantifier": "every history of requests", "why_tests_cant": "Unbounded histories.", "anchors": ["lib/ocpp/v2/functional_blocks/smart_charging.cpp: conform_validate_and_add_profile, conform_and_validate_profile", "lib/ocpp/v2/database_handler.cpp: insert_or_update_charging_profile"]}
{"id": "C21", "title": "A charging profile is accepted only if it satisfies the K01 rules", "statement": "SetChargingProfile is answered Accepted only if EVSE, transaction, schedule periods (first start 0, increasing, phases and limits consistent with the purpose and with the EVSE current type) satisfy the rules; in all other cases it is Rejected and nothing is stored.", "quantifier": "all requests and station states", "why_tests_cant": "Unbounded inputs.", "anchors": ["lib/ocpp/v2/functional_blocks/smart_charging.cpp: handle_set_charging_profile_req, validate_profile_schedules"]}
{"id": "C22", "title": "Stored external constraints take effect", "statement": "A stored and accepted ChargingStationExternalConstraints profile influences composite schedules while valid. (Violated: re-validation at use time finds the stored profile in conflict with itself.)", "quantifier": "all stores", "why_tests_cant": "Needs the store and the calculation together.", "anchors": ["lib/ocpp/v2/functional_blocks/smart_charging.cpp: get_valid_profiles_for_evse, verify_no_conflicting_external_constraints_id"]}
{"id": "C23", "title": "GetChargingProfiles reports exactly the matching profiles", "statement": "The ReportChargingProfiles messages together contain exactly the matching profiles, each under its EVSE and source, and tbc is false exactly on the last one.", "quantifier": "all stores and criteria", "why_tests_cant": "Unbounded stores.", "anchors": ["lib/ocpp/v2/functional_blocks/smart_charging.cpp: handle_get_charging_profiles_req"]}
{"id": "C24", "title": "A token is accepted only with a justification", "statement": "validate_token answers Accepted only if authorization is disabled, the token type needs none, the CSMS accepted it in this call, the local list accepts it and local authorization is permitted, an unexpired cache entry accepts it and the cache is enabled, or the station is offline and allowed to accept unknown tokens.", "quantifier": "all tokens, lists, caches, configurations and CSMS answers", "why_tests_cant": "Product of all configurations and stores.", "anchors": ["lib/ocpp/v2/functional_blocks/authorization.cpp: validate_token"]}
{"id": "C25", "title": "Remote authorization can be disabled", "statement": "With DisableRemoteAuthorization set, validate_token never issues an Authorize request. (Violated on the eMAID/contract path.)", "quantifier": "all tokens and configurations", "why_tests_cant": "Product of configurations.", "anchors": ["lib/ocpp/v2/functional_blocks/authorization.cpp: validate_token"]}
{"id": "C26", "title": "Local authorization list updates follow the version protocol", "statement": "A Full update answered Accepted leaves exactly the given entries and version; a Differential update answered Accepted changes exactly the given entries and sets the version; any other answer leaves list and version unchanged; versions of accepted differential updates strictly increase.", "quantifier": "every history of SendLocalList requests", "why_tests_cant": "Unbounded histories.", "anchors": ["lib/ocpp/v2/functional_blocks/authorization.cpp: handle_send_local_authorization_list_req, apply_local_authorization_list", "lib/ocpp/v2/database_handler.cpp"]}
{"id": "C27", "title": "Local list update is crash-atomic", "statement": "A power cut during an update leaves either the old list with the old version or the new list with the new version. (Violated: clear, insert and version update are separate writes.)", "quantifier": "all crash points", "why_tests_cant": "Crash points.", "anchors": ["lib/ocpp/v2/functional_blocks/authorization.cpp: apply_local_authorization_list"]}
{"id": "C28", "title": "Offline authorization attempts never degrade the cache", "statement": "A failed or offline authorization does not overwrite a cached answer of the CSMS. (Violated: the internal Unknown answer is cached.)", "quantifier": "all histories", "why_tests_cant": "Histories of connectivity and requests.", "anchors": ["lib/ocpp/v2/functional_blocks/authorization.cpp: validate_token (l.386-395)"]}
{"id": "C29", "title": "TransactionEvent sequence numbers are gap free and never reused", "statement": "The events of one transaction carry seqNo 0,1,2,... without gap or repetition, also across restarts; a power cut at any point may lose at most the number being handed out and never leads to a repetition, provided the database accepts writes. (Violated when the database refuses a write and the station restarts.)", "quantifier": "every history of events and crashes", "why_tests_cant": "Crash points and histories.", "anchors": ["lib/ocpp/v2/transaction.cpp: get_seq_no", "lib/ocpp/v2/evse.cpp: open_transaction, try_resume_transaction"]}
{"id": "C30", "title": "Scheduled resets happen when the blocking transactions end", "statement": "A reset answered Scheduled is carried out when the last transaction it waits for ends, and no transaction that the reset does not concern is stopped. (Violated for EVSE resets: the transactions of other EVSEs count.)", "quantifier": "all EVSE/transaction states and histories", "why_tests_cant": "Histories.", "anchors": ["lib/ocpp/v2/functional_blocks/provisioning.cpp: handle_reset_req", "lib/ocpp/v2/functional_blocks/transaction.cpp: on_transaction_finished, schedule_reset"]}
{"id": "C31", "title": "ChangeAvailability does what its answer says", "statement": "Accepted: the requested state is in force on return; Scheduled: it is in force when the last transaction concerned has ended unless a newer request replaced it; Rejected: nothing changes. (Violated in the cases listed in DESIGN.md.)", "quantifier": "all histories of requests and transactions", "why_tests_cant": "Histories.", "anchors": ["lib/ocpp/v2/functional_blocks/availability.cpp"]}
{"id": "C32", "title": "Operational status is effective, persisted and reported exactly on change", "statement": "The effective status of a connector is Inoperative iff station, EVSE or connector is individually Inoperative; callbacks fire exactly when an effective status changes; the individually set status survives restarts.", "quantifier": "all histories", "why_tests_cant": "Histories.", "anchors": ["lib/ocpp/v2/component_state_manager.cpp"]}
{"id": "C33", "title": "Connector status reported to the CSMS is the true one", "statement": "Each StatusNotification carries the status derived from Faulted > Unavailable > Occupied > Reserved > Available, and whenever all sends succeed the last reported status equals the current status.", "quantifier": "all histories of events, with arbitrary send failures", "why_tests_cant": "Histories.", "anchors": ["lib/ocpp/v2/component_state_manager.cpp"]}
{"id": "C34", "title": "1.6 connector state machine: faults mask but do not lose the underlying state", "statement": "While an error that is a fault is active the connector is Faulted; otherwise its status is the one the events alone would have produced, whatever errors came and went. A report is made exactly when the visible status changes, a new error is raised, an error is cleared and no fault is left, all errors are cleared, or a report is asked for; it has the visible status and the code of an active error (NoError only if there is none). (Violated where the start of a session looks at the masked status: a fault then loses a reservation.)", "quantifier": "all event/error histories", "why_tests_cant": "Histories.", "anchors": ["lib/ocpp/v16/charge_point_state_machine.cpp", "lib/ocpp/v16/charge_point_impl.cpp: on_session_started"]}
{"id": "C35", "title": "Remote start only starts what may be started", "statement": "RequestStartTransaction is answered Accepted only for an available, unreserved-or-matching EVSE and a valid profile, and stores a profile only if the start is accepted. (Violated for the profile.)", "quantifier": "all requests, states of the EVSEs and of the profile store, answers of the application", "why_tests_cant": "Combinations of EVSE, connector and reservation states with profiles and answers.", "anchors": ["lib/ocpp/v2/functional_blocks/remote_transaction_control.cpp"]}
{"id": "C36", "title": "Only valid values enter the device model", "statement": "A write of a variable (SetVariables, or the application) is Accepted exactly if the value has the data type of the variable, lies within its limits (the number, or for strings the length) or is from its list of values, and the attribute exists and is not ReadOnly (unless written by the station itself). (Violated for negative integers, which pass every lower limit and fail every upper one.)", "quantifier": "all variables, characteristics and strings", "why_tests_cant": "Inputs.", "anchors": ["lib/ocpp/v2/device_model.cpp: set_value, validate_value, set_value_internal", "lib/ocpp/common/utils.cpp: is_integer, is_decimal_number, is_rfc3339_datetime"]}
{"id": "C37", "title": "WriteOnly values are never disclosed", "statement": "No GetVariables answer, no report and no event contains the value of a WriteOnly attribute. (Violated by GetReport, the summary inventory and periodic monitors.)", "quantifier": "all device models and requests", "why_tests_cant": "Inputs.", "anchors": ["lib/ocpp/v2/device_model.cpp: request_value_internal, get_base_report_data, get_custom_report_data"]}
{"id": "C38", "title": "Monitoring reports are complete", "statement": "The NotifyMonitoringReport messages for a request together contain every matching monitor exactly once in order, tbc is false exactly on the last, sequence numbers count from 0. (Violated for more than ten.)", "quantifier": "all sizes", "why_tests_cant": "Sizes.", "anchors": ["lib/ocpp/v2/functional_blocks/diagnostics.cpp: notify_monitoring_report_req"]}
{"id": "C39", "title": "Customer information is transmitted completely", "statement": "CustomerInformation is Invalid without a customer, Rejected if it asks for nothing, else Accepted; then the data of the NotifyCustomerInformation messages concatenate to the (cropped) information, each piece has at most 512 characters, tbc is false exactly on the last, sequence numbers count from 0; the information is cleared exactly if that was asked for.", "quantifier": "all strings", "why_tests_cant": "Sizes.", "anchors": ["lib/ocpp/v2/functional_blocks/diagnostics.cpp: notify_customer_information_req"]}
{"id": "C40", "title": "Split reports are complete and within the size limit", "statement": "The NotifyReport messages into which a report is split concatenate to the report, tbc is false exactly on the last, sequence numbers count from 0, and each message is within the limit unless it carries a single entry. (Violated for the size from the eleventh message on.)", "quantifier": "all reports and limits", "why_tests_cant": "Sizes.", "anchors": ["lib/ocpp/v2/notify_report_requests_splitter.cpp"]}
{"id": "C41", "title": "The security profile is never lowered", "statement": "Once a connection has been confirmed with a security profile, the station opens no connection with, confirms no, and stores by SetNetworkProfile no lower one, across restarts as well.", "quantifier": "all histories of connects, disconnects, confirmations, timers, restarts and writes of the CSMS", "why_tests_cant": "Histories.", "anchors": ["lib/ocpp/v2/connectivity_manager.cpp", "lib/ocpp/v2/functional_blocks/provisioning.cpp: handle_set_network_profile_req"]}
{"id": "C42", "title": "Connection attempts visit all configured slots", "statement": "If connections keep failing, every slot of the priority list is tried within one round, in priority order.", "quantifier": "all priority lists and failure patterns", "why_tests_cant": "Unbounded.", "anchors": ["lib/ocpp/v2/connectivity_manager.cpp: get_next_configuration_slot"]}
{"id": "C43", "title": "Certificate signing requests are bounded and exclusive", "statement": "A new SignCertificate is sent only after the exchange before has ended. A request is repeated at most CertSigningRepeatTimes times, for the same certificate, with waiting times of at least CertSigningWaitMinimum that double. A failed exchange does not prevent later ones, and no order of messages makes the station throw. (Violated for the last sentence.)", "quantifier": "all histories", "why_tests_cant": "Histories.", "anchors": ["lib/ocpp/v2/functional_blocks/security.cpp"]}
{"id": "C44", "title": "Bounded strings never exceed their bound", "statement": "A length-bounded string never holds more characters than its bound; truncation keeps a prefix; otherwise the value is kept unchanged.", "quantifier": "all strings and bounds", "why_tests_cant": "Inputs.", "anchors": ["include/ocpp/common/string.hpp", "include/ocpp/common/cistring.hpp"]}
{"id": "C45", "title": "Case-insensitive equality is an equivalence and agrees with inequality", "statement": "CiString == is an equivalence, is compatible with <, and a != b holds iff not a == b. (Violated: != and < are case sensitive.)", "quantifier": "all strings", "why_tests_cant": "Inputs.", "anchors": ["include/ocpp/common/cistring.hpp"]}
{"id": "C46", "title": "Clock-aligned timers fire at aligned instants only", "statement": "The next firing time is strictly after now (or the start), congruent to the start modulo the interval, and no aligned instant in between is skipped.", "quantifier": "all times and intervals", "why_tests_cant": "Inputs.", "anchors": ["include/ocpp/common/aligned_timer.hpp", "lib/ocpp/v2/utils.cpp: align_timestamp"]}
{"id": "C47", "title": "Meter value reduction keeps first and last samples", "statement": "Dropping transaction data for an oversized StopTransaction keeps first and last elements, keeps order and only removes until the size fits or nothing removable is left.", "quantifier": "all lists and limits", "why_tests_cant": "Inputs.", "anchors": ["lib/ocpp/v16/utils.cpp: drop_transaction_data"]}
{"id": "C48", "title": "Stored transaction meter values are read back unchanged", "statement": "The meter values stored for a transaction are returned unchanged until cleared. (Violated: optional parts leak or get lost.)", "quantifier": "all meter value lists", "why_tests_cant": "Inputs and histories.", "anchors": ["lib/ocpp/v2/database_handler.cpp: transaction_metervalues_insert, transaction_metervalues_get_all"]}
{"id": "C49", "title": "Enum conversions are mutually inverse", "statement": "Every declared value of every enumeration of the protocols is converted to a text, and that text is converted back to the value; any text that is converted to a value is the text of that value, so that unknown texts are refused.", "quantifier": "all enum values and all strings", "why_tests_cant": "All strings.", "anchors": ["lib/ocpp/v16/ocpp_enums.cpp", "lib/ocpp/v2/ocpp_enums.cpp", "lib/ocpp/common/types.cpp"]}
{"id": "C50", "title": "A recurring profile has no effect before its startSchedule", "statement": "A Recurring charging profile does not limit charging at any instant before its startSchedule.", "quantifier": "all recurring profiles and instants", "why_tests_cant": "All instants.", "anchors": ["lib/ocpp/v16/profile.cpp: calculate_start", "lib/ocpp/v2/profile.cpp: calculate_start"]}
{"id": "C51", "title": "A composite setpoint respects the composite limits", "statement": "At each instant of a 2.x composite schedule a non-negative setpoint does not exceed the limit and a negative setpoint is not below the discharge limit of the same period.", "quantifier": "all profile sets and instants", "why_tests_cant": "Profiles of several purposes and units meet at arbitrary instants.", "anchors": ["lib/ocpp/v2/profile.cpp: get_set_setpoint_limit, convert_intermediate_into_schedule"]}
{"id": "C52", "title": "The composite discharge limit is the strictest one", "statement": "At each instant the 2.x composite discharge limit of an EVSE is the discharge limit closest to zero of the profiles in force, converted to the requested unit, and absent if none of them has one.", "quantifier": "all profile sets and instants", "why_tests_cant": "Continuum of instants.", "anchors": ["lib/ocpp/v2/profile.cpp: get_max_limit, merge_profiles_by_lowest_limit"]}
{"id": "C53", "title": "Limits for single phases", "statement": "At each instant the 2.1 composite schedule has the limits for single phases of the profiles in force, and none if the profiles have none.", "quantifier": "all profile sets and instants", "why_tests_cant": "Continuum of instants.", "anchors": ["lib/ocpp/v2/profile.cpp: convert_intermediate_into_schedule, merge_profiles_by_summing_limits"]}
{"id": "C54", "title": "An accepted charging profile takes effect (2.x)", "statement": "A profile that SetChargingProfile or RequestStartTransaction accepted, and that is still stored, takes part in the composite schedules of its EVSE while it is valid (a TxProfile while its transaction runs). (Violated: single-phase stations, RequestStartTransaction profiles, external constraints, foreign transaction ids.)", "quantifier": "every history of requests, API calls and transaction starts and ends; every stored profile", "why_tests_cant": "The stored form is validated again against a store that later requests have changed; only an invariant over all histories says that it stays valid.", "anchors": ["lib/ocpp/v2/functional_blocks/smart_charging.cpp:get_valid_profiles_for_evse", "lib/ocpp/v2/functional_blocks/smart_charging.cpp:conform_and_validate_profile", "lib/ocpp/v2/functional_blocks/smart_charging.cpp:calculate_composite_schedule"]}
{"id": "C55", "title": "ClearChargingProfile removes exactly what it names", "statement": "ClearChargingProfile removes exactly the stored profiles that match its id or all its criteria, never ChargingStationExternalConstraints, and is answered Accepted exactly if it removed something. (Violated for requests with the id of an external constraint and for requests without id and criteria.)", "quantifier": "all stores and requests", "why_tests_cant": "The store can hold any combination of profiles.", "anchors": ["lib/ocpp/v2/functional_blocks/smart_charging.cpp:handle_clear_charging_profile_req", "lib/ocpp/v2/database_handler.cpp:clear_charging_profiles_matching_criteria"]}
{"id": "C56", "title": "Rate limit of charging profiles (2.1)", "statement": "With ChargingProfileUpdateRateLimit l, at least l seconds pass between two accepted SetChargingProfile requests of the same purpose.", "quantifier": "all histories between two accepted requests", "why_tests_cant": "Arbitrary requests, API calls and transactions can lie between the two.", "anchors": ["lib/ocpp/v2/functional_blocks/smart_charging.cpp:verify_rate_limit"]}
{"id": "C57", "title": "A token is never mistaken for another", "statement": "Two tokens share an entry of the local list or the cache iff OCPP regards them as the same token (same type and same id, both case-insensitive). (Violated: rows are keyed by the case-sensitive concatenation of type and id.)", "quantifier": "all pairs of tokens", "why_tests_cant": "Every pair of strings has to be considered; tests use a handful of tokens of one type in one spelling.", "anchors": ["lib/ocpp/v2/utils.cpp generate_token_hash", "lib/ocpp/v2/database_handler.cpp get_local_authorization_list_entry", "lib/ocpp/v2/functional_blocks/authorization.cpp has_duplicate_in_list"]}
{"id": "C58", "title": "The authorization cache evicts only expired and least recently used entries", "statement": "A cleanup round removes every expired entry, brings the cache within its storage limit, and removes unexpired entries only in the order of their last use and only while the limit is exceeded.", "quantifier": "all cache contents, lifetimes, limits and times", "why_tests_cant": "Eviction order and minimality range over all cache contents.", "anchors": ["lib/ocpp/v2/functional_blocks/authorization.cpp cache_cleanup_handler", "lib/ocpp/v2/database_handler.cpp authorization_cache_delete_expired_entries"]}
{"id": "C59", "title": "A token refused by the CSMS deauthorizes exactly its transaction", "statement": "A TransactionEvent response whose idTokenInfo is not Accepted makes the station act exactly once, on the EVSE of that transaction if it is still running: stop, limit the energy or pause, as configured.", "quantifier": "all responses, configurations and sets of running transactions", "why_tests_cant": "Needs all combinations of running transactions and late responses.", "anchors": ["lib/ocpp/v2/functional_blocks/transaction.cpp handle_transaction_event_response"]}
{"id": "C60", "title": "Contract certificates are forwarded to the CSMS only if allowed", "statement": "The contract certificate chain of a token is sent to the CSMS only when no local certificate validation was possible and CentralContractValidationAllowed is set.", "quantifier": "all tokens, certificates, validation results and configurations", "why_tests_cant": "Decision table over independent settings and results.", "anchors": ["lib/ocpp/v2/functional_blocks/authorization.cpp: validate_token"]}
{"id": "C61", "title": "A transaction starts once, ends at most once and its events come in order", "statement": "An event tells a reason of the stop exactly if it is Ended. The events of a transaction are one Started, then any number of Updated, then at most one Ended, and a started transaction eventually ends. (Violated by power cuts during start or end, by restarts without ResumeTransactionsOnBoot and by a second start at the same EVSE.)", "quantifier": "every history of starts, updates, ends, restarts and power cuts", "why_tests_cant": "Crash points and histories.", "anchors": ["lib/ocpp/v2/functional_blocks/transaction.cpp: on_transaction_started, on_transaction_finished", "lib/ocpp/v2/evse.cpp: open_transaction, try_resume_transaction"]}
{"id": "C62", "title": "The charging state last reported is the present one", "statement": "After the application reports a charging state of a running transaction, the last TransactionEvent of that transaction carries this state. (Violated after a restart: the state in the database is that of the start.)", "quantifier": "every history of reports, events and restarts", "why_tests_cant": "Histories.", "anchors": ["lib/ocpp/v2/charge_point.cpp: on_charging_state_changed", "lib/ocpp/v2/transaction.cpp: update_charging_state", "lib/ocpp/v2/database_handler.cpp: transaction_get"]}
{"id": "C63", "title": "Remote start ids reach exactly the transaction they belong to", "statement": "A remote start id of the CSMS is attached to at most one event, to a transaction with the token of the request at the EVSE of the request, with trigger RemoteStart; a transaction started with that token at that EVSE carries it. (Violated when two requests with the same token wait, one of them without EVSE.)", "quantifier": "every history of RequestStartTransaction, transactions, restarts and power cuts", "why_tests_cant": "Histories.", "anchors": ["lib/ocpp/v2/functional_blocks/transaction.cpp: transaction_event_req, set_remote_start_id_for_evse"]}
{"id": "C64", "title": "A firmware update leaves no trace in operational statuses", "statement": "When a firmware update is over (installed or failed), every station, EVSE and connector has the individual operational status it had before, except what the CSMS changed meanwhile. (Violated when a transaction runs while the update is prepared.)", "quantifier": "all histories before, during and after the update", "why_tests_cant": "Histories with transactions, requests and updates interleaved.", "anchors": ["lib/ocpp/v2/functional_blocks/firmware_update.cpp: change_all_connectors_to_unavailable_for_firmware_update, restore_all_connector_states", "lib/ocpp/v2/functional_blocks/availability.cpp: handle_scheduled_change_availability_requests"]}
{"id": "C65", "title": "All connectors unavailable is announced when true, and in time", "statement": "The application is told that all connectors are unavailable (so that firmware can be installed) only when every connector is effectively Inoperative; and once an update was requested it has been told so by the time no transaction runs. (The second part is violated if the CSMS sends requests meanwhile.)", "quantifier": "all histories", "why_tests_cant": "Histories with transactions, requests and updates interleaved.", "anchors": ["lib/ocpp/v2/functional_blocks/firmware_update.cpp", "lib/ocpp/v2/functional_blocks/availability.cpp", "lib/ocpp/v2/evse_manager.cpp: are_all_connectors_effectively_inoperative"]}
{"id": "C66", "title": "1.6: connector status reports are truthful and up to date", "statement": "A StatusNotification carries the status the connector has at the moment it is sent. Once all statuses have been reported after the start, at any moment either a report with the current status is waiting for MinimumStatusDuration to pass, or the last report sent for the connector has the current status.", "quantifier": "all histories of application calls, CSMS requests, timer expiries and restarts, any number of connectors", "why_tests_cant": "Delayed reports interleave with further changes in unboundedly many ways.", "anchors": ["lib/ocpp/v16/charge_point_impl.cpp: status_notification, connector_status_changed, trigger_status_notifications", "lib/ocpp/v16/charge_point_state_machine.cpp"]}
{"id": "C67", "title": "1.6: connector status changes are those of the OCPP 1.6 table", "statement": "Except across a restart, the status of a connector changes only as table 4.9 of OCPP 1.6 allows; connector 0 is only ever Available, Unavailable or Faulted. (The second part is violated: the reduced state machine of connector 0 is never used.)", "quantifier": "all histories and connectors", "why_tests_cant": "Histories.", "anchors": ["lib/ocpp/v16/charge_point_state_machine.cpp: FSM_DEF, FSM_DEF_CONNECTOR_ZERO", "lib/ocpp/v16/charge_point_impl.cpp"]}
{"id": "C68", "title": "1.6: ChangeAvailability", "statement": "A request for a connector that does not exist is Rejected without effect; otherwise the answer is Scheduled iff a connector it names is in use or being prepared, else Accepted. Connectors not in use are changed at once; those in use are changed when their session ends, not before. The availability asked for last survives restarts, even when only scheduled. (Violated: a newer accepted request is overridden by an older scheduled one; a late StopTransaction confirmation executes the change during a transaction.)", "quantifier": "all states, requests and histories with restarts", "why_tests_cant": "Interleavings of sessions, requests, confirmations and restarts.", "anchors": ["lib/ocpp/v16/charge_point_impl.cpp: handleChangeAvailabilityRequest, preprocess_change_availability_request, execute_connectors_availability_change, execute_queued_availability_change"]}
{"id": "C69", "title": "1.6: RemoteStartTransaction", "statement": "The request is accepted exactly if a transaction may be started on a connector it refers to (no transaction, neither Unavailable, Faulted nor Finishing, not reserved for another token) and it has no charging profile, or names a connector and has a valid TxProfile. A rejected request stores no profile and hands no token to the application; an accepted one hands over the token with exactly the connectors referred to.", "quantifier": "all states and requests", "why_tests_cant": "Product of connector states, reservations, requests.", "anchors": ["lib/ocpp/v16/charge_point_impl.cpp: handleRemoteStartTransactionRequest, is_token_reserved_for_connector"]}
{"id": "C70", "title": "1.6: connectors during a firmware update", "statement": "When an update is ready, connectors without transaction are disabled and the others are left alone; the application is told that all connectors are unavailable only when no transaction runs, and at the latest when the end of the last one is confirmed; afterwards all connectors the CSMS left Operative are enabled, and stay so. (Violated: a successful installation keeps the update pending; a failed one leaves the scheduled change; the temporary unavailability can be stored for good.)", "quantifier": "all histories", "why_tests_cant": "Interleavings of transactions, updates, requests, restarts.", "anchors": ["lib/ocpp/v16/charge_point_impl.cpp: change_all_connectors_to_unavailable_for_firmware_update, firmware_status_notification, signed_firmware_update_status_notification, restore_all_connector_states"]}
{"id": "C71", "title": "1.6: the status of a connector follows the calls of the application", "statement": "After each call about sessions, transactions, charging, reservations or errors of a connector its status is the one of a written table of calls and previous statuses (a session start makes an Available connector Preparing, the end of a transaction makes it Finishing, ...); calls about one connector and requests of the CSMS leave the status of other connectors alone. A transaction counts as running exactly from its start to its stop or a restart.", "quantifier": "all histories, all connectors but connector 0", "why_tests_cant": "Histories; interference between connectors.", "anchors": ["lib/ocpp/v16/charge_point_impl.cpp: on_session_started, on_session_stopped, on_transaction_started, on_transaction_stopped, on_suspend_charging_ev, on_resume_charging, on_reservation_start, on_enabled, on_disabled, on_plugin_timeout"]}
{"id": "C72", "title": "Writes of the device model are exact", "statement": "A write of a variable that is not Accepted changes nothing. An Accepted one changes the value of this attribute of this variable and nothing else, and a later read returns it; the CSMS gets Rejected and no value if the attribute is WriteOnly.", "quantifier": "all device models, components, variables, attributes and values", "why_tests_cant": "Frame property over every other attribute of every device model.", "anchors": ["lib/ocpp/v2/device_model.cpp: set_value, request_value_internal, get_variable", "lib/ocpp/v2/device_model_storage_sqlite.cpp: set_variable_attribute_value"]}
{"id": "C73", "title": "Every item of SetVariables is answered and acted upon", "statement": "The answer to SetVariables has exactly one result for every item, naming its component, variable and attribute, with the status of writing it after the items before it, and the application is told of exactly the items that were accepted. (Violated for two attributes of one variable in one request.)", "quantifier": "all device models and lists of items", "why_tests_cant": "All lists of items, with repetitions.", "anchors": ["lib/ocpp/v2/functional_blocks/provisioning.cpp: set_variables, set_variables_internal, handle_set_variables_req, handle_variables_changed"]}
{"id": "C74", "title": "GetVariables answers every item truthfully", "statement": "GetVariables with more items or bytes than allowed is answered with the CALLERROR of that limit; otherwise with one result per item in the order of the request; UnknownComponent, UnknownVariable, NotSupportedAttributeType and Rejected exactly if the component, the variable or the attribute value does not exist or is WriteOnly, else Accepted with the stored value.", "quantifier": "all device models and requests", "why_tests_cant": "All lists of items over all device models.", "anchors": ["lib/ocpp/v2/functional_blocks/provisioning.cpp: handle_get_variables_req, get_variables", "lib/ocpp/v2/device_model.cpp: request_value_internal"]}
{"id": "C75", "title": "Base reports are complete", "statement": "The full inventory contains every attribute of every variable, the configuration inventory exactly the attributes that may be written, each with its value unless WriteOnly; no variable is reported twice.", "quantifier": "all device models", "why_tests_cant": "Completeness over all device models.", "anchors": ["lib/ocpp/v2/device_model.cpp: get_base_report_data"]}
{"id": "C76", "title": "GetReport selects what was asked for", "statement": "The report caused by GetReport contains exactly the attributes of the variables asked for by the component/variable list whose component satisfies one of the criteria. The answer is EmptyResultSet if there are none, NotSupported if a criterion is not supported and Accepted otherwise. (Violated: the status of the answer is read before it is set.)", "quantifier": "all device models, component/variable lists and criteria", "why_tests_cant": "Combinations of wildcards and criteria.", "anchors": ["lib/ocpp/v2/device_model.cpp: get_custom_report_data, component_variables_match, component_criteria_match", "lib/ocpp/v2/functional_blocks/provisioning.cpp: handle_get_report_req"]}
{"id": "C77", "title": "Monitors survive restarts", "statement": "Whatever SetVariableMonitoring, ClearVariableMonitoring, writes and restarts occur, the station monitors exactly the monitors its database contains, each monitoring id belongs to one monitor, and a restart changes nothing. (Violated: a request with the id of a monitor but another variable.)", "quantifier": "all histories of requests, writes and restarts", "why_tests_cant": "Histories of unbounded length with restarts at any point.", "anchors": ["lib/ocpp/v2/device_model.cpp: set_monitors, clear_monitors", "lib/ocpp/v2/device_model_storage_sqlite.cpp: set_monitoring_data, update_monitoring_reference, clear_variable_monitor", "lib/ocpp/v2/init_device_model_db.cpp"]}
{"id": "C78", "title": "Monitors that the CSMS did not install are protected", "statement": "No request of the CSMS removes or changes a hard-wired or preconfigured monitor. ClearVariableMonitoring answers NotFound, Rejected or Accepted according to whether the monitor exists and who installed it, and removes exactly the monitors it accepts. (Violated: SetVariableMonitoring with the id of such a monitor takes it over.)", "quantifier": "all stores of monitors, all histories of requests", "why_tests_cant": "Any history of requests.", "anchors": ["lib/ocpp/v2/device_model.cpp: set_monitors, clear_monitors", "lib/ocpp/v2/device_model_storage_sqlite.cpp: clear_variable_monitor"]}
{"id": "C79", "title": "SetVariableMonitoring answers truthfully", "statement": "SetVariableMonitoring answers one result per item, in order, each decided after the items before it. A new monitor is Accepted exactly if the variable exists and can be monitored with that value, no monitor of the same type and severity is on it, and a delta monitor has a value to refer to; then exactly that monitor is installed, under an id never used before. Otherwise nothing changes and the answer says why.", "quantifier": "all stores of monitors and requests", "why_tests_cant": "Lists of items of any length over all stores.", "anchors": ["lib/ocpp/v2/device_model.cpp: set_monitors, validate_monitor", "lib/ocpp/v2/functional_blocks/diagnostics.cpp: handle_set_variable_monitoring_req"]}
{"id": "C80", "title": "Thresholds within the limits of the variable are accepted", "statement": "A threshold for a numeric variable that can be monitored is accepted exactly if it is within the limits of the variable. (Violated: every threshold for an integer variable is rejected.)", "quantifier": "all variables and thresholds", "why_tests_cant": "All numbers as thresholds.", "anchors": ["lib/ocpp/v2/device_model.cpp: validate_monitor, validate_value"]}
{"id": "C81", "title": "Monitoring reports are complete", "statement": "The data reported for GetMonitoringReport contains exactly the monitors of the requested variables that match one of the requested criteria.", "quantifier": "all stores of monitors and requests", "why_tests_cant": "Combinations of criteria, components and wildcards.", "anchors": ["lib/ocpp/v2/device_model.cpp: get_monitors"]}
{"id": "C82", "title": "Processing of monitors ends", "statement": "Every run of the processing of monitors, from the timer or after SetVariables, visits each monitor once and ends. (Violated: with a periodic monitor the run after SetVariables never ends; with an inactive one the timer does not either.)", "quantifier": "all stores of monitors, settings and times", "why_tests_cant": "Termination for every state.", "anchors": ["lib/ocpp/v2/monitoring_updater.cpp: process_monitors_internal, process_triggered_monitors"]}
{"id": "C83", "title": "The CSMS knows which thresholds are exceeded", "statement": "After every run of the processing of monitors while online, the last event sent for a threshold monitor says whether the variable is beyond the threshold now. Alerts of a severity that is to be queued are sent after a time offline. (Violated when an alert is discarded while offline, when an alert begins and ends offline, and for short alerts.)", "quantifier": "all histories of value changes and runs of the processing", "why_tests_cant": "Interleavings of value changes, runs and connection losses.", "anchors": ["lib/ocpp/v2/monitoring_updater.cpp: evaluate_monitor, process_monitors_internal, should_remove_monitor_meta_internal", "include/ocpp/v2/monitoring_updater.hpp"]}
{"id": "C84", "title": "Delta monitors report changes since the last report", "statement": "An event is sent when the value differs by more than the delta from the value last reported, or from the value when the monitor was set, and only then. (Violated: numeric references are never updated.)", "quantifier": "all histories of value changes", "why_tests_cant": "Histories of value changes.", "anchors": ["lib/ocpp/v2/monitoring_updater.cpp: triggers_monitor, evaluate_monitor"]}
{"id": "C85", "title": "Periodic monitors report in time", "statement": "A monitor of type Periodic sends events more than its interval apart, and at every run the last one is at most the interval old. A monitor of type PeriodicClockAligned sends one event for every aligned instant, at the run after it. (Violated: a run within the second after an aligned instant causes a second event for it; intervals below a second are accepted and their instant is undefined.)", "quantifier": "all intervals and sequences of runs", "why_tests_cant": "All sequences of times of runs.", "anchors": ["lib/ocpp/v2/monitoring_updater.cpp: get_next_clock_aligned_point, process_monitor_meta_internal, update_periodic_monitors_internal"]}
{"id": "C86", "title": "Event ids are unique", "statement": "No two events sent in NotifyEvent messages since the start of the station have the same event id.", "quantifier": "all histories of value changes, changes of monitors, and runs", "why_tests_cant": "All histories, including monitors discarded with events pending.", "anchors": ["lib/ocpp/v2/monitoring_updater.cpp: create_notify_event, process_monitors_internal"]}
{"id": "C87", "title": "The security profile confirmed is that of the connection in use", "statement": "When a connection is confirmed (the CSMS accepts the BootNotification), SecurityProfile is set to the security profile of the connection actually in use, and only stored profiles that are lower are removed.", "quantifier": "all configurations and histories", "why_tests_cant": "The index of the active slot is used after the list of slots was shortened.", "anchors": ["lib/ocpp/v2/connectivity_manager.cpp: confirm_successful_connection, check_cache_for_invalid_security_profiles", "lib/ocpp/v2/charge_point.cpp: websocket_connected_callback"]}
{"id": "C88", "title": "Choosing a connection never throws", "statement": "For every configuration in which the listed slots have profiles, no event of the websocket, timer or application makes the choice of the connection throw.", "quantifier": "all configurations and histories", "why_tests_cant": "Depends on which slots have been removed before.", "anchors": ["lib/ocpp/v2/connectivity_manager.cpp: get_active_network_configuration_slot, on_websocket_disconnected, on_websocket_stopped_connecting"]}
{"id": "C89", "title": "Connections are opened only when wanted", "statement": "After disconnect() no connection is opened until connect() is called; while connected no other connection is opened on the station's own initiative.", "quantifier": "all histories", "why_tests_cant": "Schedules of timers and calls.", "anchors": ["lib/ocpp/v2/connectivity_manager.cpp: connect, disconnect, try_connect_websocket, websocket_timer"]}
{"id": "C90", "title": "Validation of network profiles", "statement": "SetNetworkProfile is Accepted exactly if the application validates the profile, its security profile is not lower than the current one and it can be written, and changes only that slot; NetworkConfigurationPriority accepts exactly the lists of slots whose profiles exist and whose certificates are installed.", "quantifier": "all profiles, lists and configurations", "why_tests_cant": "All inputs.", "anchors": ["lib/ocpp/v2/functional_blocks/provisioning.cpp: handle_set_network_profile_req, validate_set_variable"]}
{"id": "C91", "title": "Which monitors are reported", "statement": "A NotifyEvent is sent only while monitoring is enabled and the station is online, and only for monitors that are active under the monitoring base and whose severity number is not above the monitoring level; offline, only monitors up to the queueing severity are kept.", "quantifier": "all histories of changes and runs, all settings", "why_tests_cant": "Histories and settings.", "anchors": ["lib/ocpp/v2/monitoring_updater.cpp: process_monitors_internal, is_monitor_active", "include/ocpp/v2/monitoring_updater.hpp"]}
{"id": "C92", "title": "Cleared monitors are silent", "statement": "After ClearVariableMonitoring was answered Accepted for a monitor, no event of that monitor is generated or sent.", "quantifier": "all histories", "why_tests_cant": "Histories.", "anchors": ["lib/ocpp/v2/monitoring_updater.cpp: update_periodic_monitors_internal", "lib/ocpp/v2/device_model.cpp: clear_monitors"]}
{"id": "C93", "title": "Thresholds apply to the current value", "statement": "When a threshold is set or changed such that the current value of the variable is beyond it, or no longer is, the CSMS is told of that.", "quantifier": "all histories", "why_tests_cant": "Histories.", "anchors": ["lib/ocpp/v2/monitoring_updater.cpp: on_monitor_updated", "lib/ocpp/v2/device_model.cpp: set_monitors"]}
{"id": "C94", "title": "Connections use configured profiles", "statement": "Connections are opened only with profiles that were configured when the station was started, for slots of the priority list, and with security profile 0 only while that is allowed.", "quantifier": "all states and events", "why_tests_cant": "All states.", "anchors": ["lib/ocpp/v2/connectivity_manager.cpp: get_network_connection_profile, try_connect_websocket"]}
{"id": "C95", "title": "Root certificates are installed only where allowed", "statement": "InstallCertificate installs a root certificate exactly if the connection uses TLS or the type may be installed without, answers once and truthfully, and reports a security event exactly if a certificate was installed.", "quantifier": "all requests and configurations", "why_tests_cant": "All configurations.", "anchors": ["lib/ocpp/v2/functional_blocks/security.cpp: handle_install_certificate_req, should_allow_certificate_install"]}
{"id": "C96", "title": "Remote stop stops the right transaction", "statement": "RequestStopTransaction asks the application to stop exactly the EVSE on which the transaction of the request runs and answers what the application says; if no EVSE runs it, it is rejected and nothing is stopped.", "quantifier": "all numbers of EVSEs, running transactions and ids", "why_tests_cant": "Any number of EVSEs and transactions.", "anchors": ["lib/ocpp/v2/functional_blocks/remote_transaction_control.cpp: handle_remote_stop_transaction_request", "lib/ocpp/v2/evse_manager.cpp: get_transaction_evseid"]}
{"id": "C97", "title": "Unlocking only what may be unlocked", "statement": "UnlockConnector asks the application to unlock only a connector that exists, on an EVSE without transaction; otherwise the answer is UnknownConnector or OngoingAuthorizedTransaction and nothing is unlocked. (Violated for connectors below 1 and EVSE 0.)", "quantifier": "all requests and states of the EVSEs", "why_tests_cant": "Any numbers of EVSEs and connectors, negative numbers.", "anchors": ["lib/ocpp/v2/functional_blocks/remote_transaction_control.cpp: handle_unlock_connector"]}
{"id": "C98", "title": "TriggerMessage: Accepted means sent", "statement": "TriggerMessage is answered Accepted exactly if a message follows; each is of the requested kind, about the EVSE of the request, and contains what was measured and configured; all EVSEs in question are reported. (Violated for SignChargingStationCertificate.)", "quantifier": "all requests, states of the EVSEs, configurations", "why_tests_cant": "Number of EVSEs, measurands and requests.", "anchors": ["lib/ocpp/v2/functional_blocks/remote_transaction_control.cpp: handle_trigger_message"]}
{"id": "C99", "title": "Reservations only for connectors that exist", "statement": "ReserveNow asks the application exactly if reservations are implemented, available and enabled and the EVSE (or some EVSE, if allowed) has a connector of the type; the answer is that of the application, else Rejected.", "quantifier": "all requests, configurations and EVSEs", "why_tests_cant": "Any number of EVSEs and connectors.", "anchors": ["lib/ocpp/v2/functional_blocks/reservation.cpp: handle_reserve_now_request, handle_cancel_reservation_callback"]}
{"id": "C100", "title": "Nothing but provisioning before the station is accepted", "statement": "While the registration status is Pending or Rejected only the messages OCPP allows then are handled; remote starts and stops are rejected, every other CALL gets CALLERROR SecurityError, and nothing but CALLs is answered. (The last part is violated.)", "quantifier": "all messages and registration statuses", "why_tests_cant": "All messages in all statuses.", "anchors": ["lib/ocpp/v2/charge_point.cpp: message_callback"]}
{"id": "C101", "title": "Meter values of an ended transaction", "statement": "TransactionEvent(Ended) reports, in stored order and up to the end of the transaction, exactly the samples whose measurand is configured for the context (sampled or clock-aligned) in which the value was taken, with their signatures only if configured.", "quantifier": "every list of stored meter values, every configuration and end time", "why_tests_cant": "Depends on the combination of contexts, measurands, configuration and times.", "anchors": ["lib/ocpp/v2/utils.cpp:get_meter_values_with_measurands_applied"]}
{"id": "C102", "title": "Averaged meter values", "statement": "The value reported for a current, voltage, power or frequency is the mean of all values measured for the same measurand, phase and location since the last report; other measurands report their last value. (Violated: units are ignored.)", "quantifier": "every history of measurements, reports and clearings", "why_tests_cant": "Histories are unbounded.", "anchors": ["lib/ocpp/v2/average_meter_values.cpp"]}
{"id": "C103", "title": "Clock-aligned meter values without transaction", "statement": "At a clock-aligned instant a MeterValues.req is sent for the station and exactly the EVSEs without transaction, with exactly the configured measurands and context Sample.Clock, no value twice; none at all with AlignedDataSendDuringIdle while a transaction is running anywhere.", "quantifier": "every station, configuration and state of measurements", "why_tests_cant": "All combinations of EVSEs, transactions and measurands.", "anchors": ["lib/ocpp/v2/functional_blocks/meter_values.cpp:update_aligned_data_interval"]}
{"id": "C104", "title": "Price triggers", "statement": "After the CSMS asked for a report at an energy, exactly one message is sent, for the first value that has reached it; after it asked for reports at a power, messages are sent exactly for the first value and each that crosses the power by 5 %. (Violated: never again after a value that is exactly the threshold; units of power ignored.)", "quantifier": "every sequence of meter values and all thresholds", "why_tests_cant": "Unbounded sequences of readings, exact boundaries.", "anchors": ["lib/ocpp/v2/evse.cpp:send_meter_value_on_pricing_trigger"]}
{"id": "C105", "title": "MaxEnergyOnInvalidId", "statement": "While the token of a running transaction is not accepted, charging is paused exactly at the first reading at which MaxEnergyOnInvalidId was charged, and once. (Violated if there was no register reading at the start.)", "quantifier": "every sequence of readings, start and maximum", "why_tests_cant": "Unbounded sequences, rounding boundary.", "anchors": ["lib/ocpp/v2/evse.cpp:check_max_energy_on_invalid_id"]}
{"id": "C106", "title": "Messages are read as they were written", "statement": "Every value of every request, response and data type of OCPP 1.6 and OCPP 2.x that the library defines can be written as JSON, and reading that JSON gives the same value: all members, set or not set, nested structs, lists, enumerations, times to the millisecond. The object has exactly the members that are set, under their names.", "quantifier": "all structs of the messages, all values, all depths of nesting", "why_tests_cant": "the tests convert a few messages; there are 350 structs with some 1400 members and unboundedly many values", "anchors": ["lib/ocpp/v2/ocpp_types.cpp: to_json, from_json", "lib/ocpp/v16/ocpp_types.cpp: to_json, from_json", "lib/ocpp/v2/messages/*.cpp", "lib/ocpp/v16/messages/*.cpp", "lib/ocpp/common/types.cpp: to_json, from_json"]}
{"id": "C107", "title": "What is read from JSON is a value of its type", "statement": "Reading JSON as a message or data type either fails or gives a value of the type: every member that is not optional was there, no text is longer than allowed, integers have 32 bits, values of enumerations are declared ones. A missing member that is not optional is refused, unknown keys do not matter, and a number that does not fit is refused.", "quantifier": "all structs of the messages, all JSON values", "why_tests_cant": "received JSON is arbitrary", "anchors": ["lib/ocpp/v2/ocpp_types.cpp: from_json", "lib/ocpp/v16/ocpp_types.cpp: from_json", "include/ocpp/common/string.hpp: String"]}
{"id": "C108", "title": "Times survive the conversion to text", "statement": "A time written as RFC 3339 text and read again is the same to the millisecond; different times have different texts; a text with an offset from UTC is read as the time less that offset; a text that is not such a time is refused.", "quantifier": "all times of the years 0000 to 9999, all offsets, all texts", "why_tests_cant": "calendar computations have many boundaries (months, leap years, centuries)", "anchors": ["lib/ocpp/common/types.cpp: DateTimeImpl::to_rfc3339, DateTimeImpl::from_rfc3339"]}
{"id": "C109", "title": "1.6: a tag is accepted only with a justification", "statement": "authorize_id_token of an OCPP 1.6 station answers Accepted only if the CSMS accepted the tag in this call, or the enabled local list or the enabled cache may be used in the present connection state and holds an accepting, unexpired entry for the tag (compared without regard to case), or the station is offline, may accept unknown tags and knows nothing about the tag. An entry of the list decides before the cache and the CSMS. The call has no undefined behaviour.", "quantifier": "all configurations, connection states, table contents, tags, clock readings, answers of the CSMS and failing database statements", "why_tests_cant": "Every combination of configuration, table content, expiry and connection state must be covered; tests try a few.", "anchors": ["lib/ocpp/v16/charge_point_impl.cpp: ChargePointImpl::authorize_id_token, validate_against_cache_entries", "lib/ocpp/v16/database_handler.cpp: get_authorization_cache_entry, get_local_authorization_list_entry"]}
{"id": "C110", "title": "1.6: the cache holds what the CSMS said last", "statement": "After any history the authorization cache of an OCPP 1.6 station holds for each tag the idTagInfo that the CSMS last sent for it, in Authorize.conf, StartTransaction.conf or StopTransaction.conf, since the cache was last cleared, marked as Expired once the expiry date has passed. ClearCache empties it exactly when it answers Accepted.", "quantifier": "all histories of authorizations, transaction responses, ClearCache, list updates, power cuts and restarts; all tags", "why_tests_cant": "The property relates the whole history of messages to a table.", "anchors": ["lib/ocpp/v16/charge_point_impl.cpp: handleStartTransactionResponse, handleStopTransactionResponse, handleClearCacheRequest", "lib/ocpp/v16/transaction.cpp: TransactionHandler::get_authorized_id_tag"]}
{"id": "C111", "title": "1.6: local list updates follow the version protocol", "statement": "SendLocalList of an OCPP 1.6 station: a full update replaces the list, a differential update with a greater version changes exactly the tags it names, anything else changes nothing and says so; the version reported by GetLocalListVersion is the one differential updates are compared with; the list never exceeds its configured maximum.", "quantifier": "all requests, tables and histories", "why_tests_cant": "Requests and list contents are unbounded.", "anchors": ["lib/ocpp/v16/charge_point_impl.cpp: handleSendLocalListRequest, handleGetLocalListVersionRequest", "lib/ocpp/v16/database_handler.cpp: insert_or_update_local_authorization_list"]}
{"id": "C112", "title": "1.6: local list updates are crash-atomic", "statement": "After a power cut during SendLocalList of an OCPP 1.6 station the list and its version are those before or those after the update, so that the CSMS can tell whether to repeat it.", "quantifier": "all requests, tables and crash points between database statements", "why_tests_cant": "Crash points cannot be enumerated by unit tests.", "anchors": ["lib/ocpp/v16/charge_point_impl.cpp: handleSendLocalListRequest"]}
{"id": "C113", "title": "1.6: contracts are accepted only with a justification", "statement": "Plug&Charge authorization of an OCPP 1.6 station answers Accepted only if the CSMS accepted the contract in this call, or the station is offline, offline validation and offline authorization are configured, the certificate was found valid, and list or cache accept the eMAID. The certificate is sent to the CSMS only if central validation is allowed and needed. While connected the CSMS decides.", "quantifier": "all configurations, connection states, certificates, validation results, answers and table contents", "why_tests_cant": "The decision depends on a dozen independent inputs.", "anchors": ["lib/ocpp/v16/charge_point_impl.cpp: ChargePointImpl::data_transfer_pnc_authorize"]}
{"id": "C114", "title": "1.6: each transaction is stopped at the CSMS at most once", "statement": "For each transaction of an OCPP 1.6 station the CSMS gets at most one StopTransaction.req, apart from repetitions of a request that was not answered: also if transactions start and stop offline, messages are repeated or given up, and the station crashes and restarts at any point.", "quantifier": "all histories of starts, stops, samples, deliveries, repetitions, given up messages and crashes, interleaved with the steps of the application thread", "why_tests_cant": "Crash points and interleavings cannot be enumerated.", "anchors": ["lib/ocpp/v16/charge_point_impl.cpp: start_transaction, stop_transaction, handleStartTransactionResponse, handleStopTransactionResponse, try_resume_transactions", "lib/ocpp/v16/transaction.cpp", "lib/ocpp/v16/database_handler.cpp: transactions"]}
{"id": "C115", "title": "1.6: StopTransaction carries the id assigned by the CSMS", "statement": "If the CSMS has assigned a transaction id to a transaction in StartTransaction.conf, then StopTransaction.req of this transaction carries that id, also if it was queued before the id was known.", "quantifier": "all histories as in C114", "why_tests_cant": "The answer may arrive at any moment during the stop, and crashes may lose what is kept in memory.", "anchors": ["lib/ocpp/v16/charge_point_impl.cpp: handleStartTransactionResponse, stop_transaction", "include/ocpp/common/message_queue.hpp: add_stopped_transaction_id, contains_stop_transaction_message"]}
{"id": "C116", "title": "1.6: interrupted transactions are resumed or ended after a restart", "statement": "After a restart the queue holds what it held before and in addition exactly one StopTransaction.req for each transaction that the CSMS has not acknowledged, that is not resumed and that has none queued, with its id and the final or last stored meter value; exactly the resumed transactions run again, with the ids they had.", "quantifier": "all database contents, queues and sets of resumed sessions", "why_tests_cant": "Database contents are unbounded.", "anchors": ["lib/ocpp/v16/charge_point_impl.cpp: try_resume_transactions", "lib/ocpp/v16/database_handler.cpp: get_transactions, update_transaction"]}
{"id": "C117", "title": "1.6: a new sample interval is applied to running transactions", "statement": "ChangeConfiguration of MeterValueSampleInterval can be applied to all running transactions without undefined behaviour, whatever happened before.", "quantifier": "all histories", "why_tests_cant": "Needs a restart with a resumed transaction before the change.", "anchors": ["lib/ocpp/v16/transaction.cpp: change_meter_values_sample_intervals", "lib/ocpp/v16/charge_point_impl.cpp: try_resume_transactions"]}
{"id": "C118", "title": "1.6: RemoteStopTransaction stops the transaction with the id", "statement": "RemoteStopTransaction is Accepted exactly if a running transaction has the id of the request, and then that one is stopped; a running transaction has the id the CSMS assigned to it, also after a restart.", "quantifier": "all states; all histories of starts, stops, answers, retries and crashes, for an application that starts and stops sessions as the API asks and resumes after a restart only the last unacknowledged transaction of a connector", "why_tests_cant": "Ids, connectors and histories are unbounded.", "anchors": ["lib/ocpp/v16/charge_point_impl.cpp: handleRemoteStopTransactionRequest", "lib/ocpp/v16/transaction.cpp: get_connector_from_transaction_id"]}
{"id": "C119", "title": "1.6: StopTransaction follows StartTransaction", "statement": "The CSMS gets StopTransaction.req of a transaction only after it has got its StartTransaction.req.", "quantifier": "all histories with crashes at any point", "why_tests_cant": "Crash points cannot be enumerated by unit tests.", "anchors": ["lib/ocpp/v16/charge_point_impl.cpp: start_transaction, try_resume_transactions"]}
{"id": "C120", "title": "1.6: SetChargingProfile installs exactly valid profiles", "statement": "SetChargingProfile of an OCPP 1.6 station is Accepted exactly if the profile obeys the rules (connector, stack level, purpose, units, number of periods, phases, limits, start, recurrency, running transaction, room), and then it replaces exactly the profiles with the same id or the same purpose and stack level at its connectors and is in effect there; otherwise nothing changes. A replacement needs no additional room. The profile of RemoteStartTransaction follows the same rules, except that the transaction need not run yet.", "quantifier": "all configurations, reachable stores, connectors and profiles", "why_tests_cant": "Profiles, stores and histories are unbounded.", "anchors": ["lib/ocpp/v16/smart_charging.cpp: validate_profile, add_*, clear_*, get_valid_profiles", "lib/ocpp/v16/charge_point_impl.cpp: handleSetChargingProfileRequest, handleClearChargingProfileRequest, load_charging_profiles", "lib/ocpp/v16/database_handler.cpp: insert_or_update_charging_profile, delete_charging_profile"]}
{"id": "C121", "title": "1.6: ClearChargingProfile clears exactly what matches", "statement": "ClearChargingProfile removes exactly the profiles that match the id, or else all given filters, answers Accepted exactly if there were any (or no filter is given), and what was removed does not come back with a restart. A profile can be cleared with the connector, stack level and purpose it was set with.", "quantifier": "all reachable stores and filters", "why_tests_cant": "Stores and combinations of filters are unbounded.", "anchors": ["lib/ocpp/v16/smart_charging.cpp: validate_profile, add_*, clear_*, get_valid_profiles", "lib/ocpp/v16/charge_point_impl.cpp: handleSetChargingProfileRequest, handleClearChargingProfileRequest, load_charging_profiles", "lib/ocpp/v16/database_handler.cpp: insert_or_update_charging_profile, delete_charging_profile"]}
{"id": "C122", "title": "1.6: charging profiles survive a restart", "statement": "After a restart of an OCPP 1.6 station the installed profiles are those before, except the profiles of single transactions.", "quantifier": "all histories of requests, transactions, expiry and restarts", "why_tests_cant": "Depends on the whole history of the store and its database.", "anchors": ["lib/ocpp/v16/smart_charging.cpp: validate_profile, add_*, clear_*, get_valid_profiles", "lib/ocpp/v16/charge_point_impl.cpp: handleSetChargingProfileRequest, handleClearChargingProfileRequest, load_charging_profiles", "lib/ocpp/v16/database_handler.cpp: insert_or_update_charging_profile, delete_charging_profile"]}
{"id": "C123", "title": "1.6: the number of charging profiles is limited", "statement": "An OCPP 1.6 station never keeps more charging profiles than MaxChargingProfilesInstalled.", "quantifier": "all histories", "why_tests_cant": "Histories are unbounded.", "anchors": ["lib/ocpp/v16/smart_charging.cpp: validate_profile, add_*, clear_*, get_valid_profiles", "lib/ocpp/v16/charge_point_impl.cpp: handleSetChargingProfileRequest, handleClearChargingProfileRequest, load_charging_profiles", "lib/ocpp/v16/database_handler.cpp: insert_or_update_charging_profile, delete_charging_profile"]}
{"id": "C124", "title": "1.6: expired charging profiles are removed", "statement": "The daily cleaning removes exactly the profiles whose validity or absolute schedule is over, and they do not come back with a restart.", "quantifier": "all reachable stores and times", "why_tests_cant": "Stores and times are unbounded.", "anchors": ["lib/ocpp/v16/smart_charging.cpp: validate_profile, add_*, clear_*, get_valid_profiles", "lib/ocpp/v16/charge_point_impl.cpp: handleSetChargingProfileRequest, handleClearChargingProfileRequest, load_charging_profiles", "lib/ocpp/v16/database_handler.cpp: insert_or_update_charging_profile, delete_charging_profile"]}
{"id": "C125", "title": "1.6: TxProfiles apply to their transaction only", "statement": "A TxProfile is in effect only for the transaction it was made for: it is removed when the transaction ends, one with a transaction id is in effect only while that transaction runs, and one sent with RemoteStartTransaction applies only to the transaction started by it; transactions resumed after a restart can get TxProfiles.", "quantifier": "all histories", "why_tests_cant": "Depends on the order of requests, transactions and restarts.", "anchors": ["lib/ocpp/v16/smart_charging.cpp: validate_profile, add_*, clear_*, get_valid_profiles", "lib/ocpp/v16/charge_point_impl.cpp: handleSetChargingProfileRequest, handleClearChargingProfileRequest, load_charging_profiles", "lib/ocpp/v16/database_handler.cpp: insert_or_update_charging_profile, delete_charging_profile"]}
{"id": "C126", "title": "A station that is not accepted keeps trying to register", "statement": "As long as the CSMS has not accepted the station, a BootNotification is queued, outstanding or being answered, or the timer for the next one runs: the station never gives up and never gets stuck unregistered while its process lives. The next BootNotification is sent when the time the CSMS asked for (or else a default of 60 s in OCPP 1.6, 30 s in 2.x) has passed, and not before; only an answer Accepted to an outstanding BootNotification registers the station.", "quantifier": "every configuration and history of messages queued, transmitted or failed, answers (with any status and interval), errors, timeouts, connection losses, restarts and passing of time", "why_tests_cant": "The loss of the one pending BootNotification needs a particular combination of a full queue, a failed transmission, or the order of two threads; tests exercise the normal sequence.", "anchors": ["lib/ocpp/v16/charge_point_impl.cpp: boot_notification, handleBootNotificationResponse, message_callback, connected_callback", "lib/ocpp/v2/functional_blocks/provisioning.cpp: boot_notification_req, handle_boot_notification_response", "include/ocpp/common/message_queue.hpp: get_next_message, check_queue_sizes, handle_timeout_or_callerror"]}
{"id": "C127", "title": "A restarted station registers anew and then sends what waited", "statement": "After the station was stopped and started again it transmits nothing but BootNotification until the CSMS accepts it; when the CSMS accepts it, messages kept from before are transmitted and heartbeats are sent.", "quantifier": "every state in which the station is stopped and every history afterwards", "why_tests_cant": "What is never sent after a restart can only be shown over all later histories.", "anchors": ["lib/ocpp/v16/charge_point_impl.cpp: stop, restart, start, message_callback, handleBootNotificationResponse", "include/ocpp/common/message_queue.hpp: set_registration_status_accepted"]}
{"id": "C128", "title": "A registered station sends heartbeats with the configured interval", "statement": "Whenever the station is accepted, its heartbeat timer runs with the value of HeartbeatInterval, which is the interval of the last answer Accepted that had one, or what the CSMS set later; the waiting time of other answers does not change it. No heartbeat timer runs before the CSMS has accepted the station.", "quantifier": "every history of answers, configuration changes and restarts", "why_tests_cant": "The interval and the timer are changed in several places; that they agree in every state is an invariant over all histories.", "anchors": ["lib/ocpp/v16/charge_point_impl.cpp: handleBootNotificationResponse, update_heartbeat_interval", "lib/ocpp/v2/functional_blocks/provisioning.cpp: handle_boot_notification_response", "lib/ocpp/v2/functional_blocks/availability.cpp: set_heartbeat_timer_interval"]}
{"id": "C129", "title": "Requests before the station is accepted", "statement": "Before the CSMS has accepted the station no request is carried out but those OCPP allows in that state; remote starts and stops are refused while the registration is pending; once accepted every supported request is carried out; and only requests are answered. In OCPP 1.6 an answer to BootNotification is looked at exactly as long as the station is connected and not registered.", "quantifier": "every registration state reached by any history and every kind of message", "why_tests_cant": "The registration state is kept in two variables (1.6) changed by different threads of execution; their agreement is an invariant.", "anchors": ["lib/ocpp/v16/charge_point_impl.cpp: message_callback", "lib/ocpp/v2/charge_point.cpp: message_callback"]}
{"id": "C130", "title": "A refused ChangeConfiguration changes nothing (OCPP 1.6)", "statement": "A ChangeConfiguration for a key the station does not have is answered NotSupported, one for a key reported as read only is answered Rejected, and a request answered with anything but Accepted or RebootRequired leaves the configuration, the stored changes and a pending switch of the security profile as they were.", "quantifier": "every configuration, key, value and outcome of writing the file", "why_tests_cant": "The keys, the values, the configurations and the failures of the file system have too many combinations.", "anchors": ["lib/ocpp/v16/charge_point_configuration.cpp: get, set, setInUserConfig", "lib/ocpp/v16/charge_point_impl.cpp: set_configuration_key_internal, handleChangeConfigurationRequest"]}
{"id": "C131", "title": "An accepted ChangeConfiguration takes effect and survives a restart (OCPP 1.6)", "statement": "After an accepted change the key is reported with the value that the text of the request says, all other keys are reported as before, and after a restart of the process at any later point each key is reported as before the restart.", "quantifier": "every key and value, every history of changes, switches of the security profile and restarts", "why_tests_cant": "A test tries some keys; the claim is about each key, and about histories with restarts at any point.", "anchors": ["lib/ocpp/v16/charge_point_configuration.cpp: set, setInUserConfig, get_user_config, setChargepointInformation"]}
{"id": "C132", "title": "The case of key names does not matter (OCPP 1.6)", "statement": "GetConfiguration and ChangeConfiguration treat names of keys that differ only in upper and lower case alike: same answer, same effect, and the application is told alike.", "quantifier": "every key and each of its spellings", "why_tests_cant": "There are exponentially many spellings of each key.", "anchors": ["lib/ocpp/v16/charge_point_configuration.cpp: get, set", "lib/ocpp/v16/charge_point_impl.cpp: set_configuration_key_internal", "include/ocpp/common/cistring.hpp: CiString"]}
{"id": "C133", "title": "Accepted values are legal (OCPP 1.6)", "statement": "A value that is accepted by ChangeConfiguration is legal for the key: true or false for boolean keys, an integer within the limits of the schema for integer keys, a text with a legal length for text keys.", "quantifier": "every key and every text", "why_tests_cant": "The values are arbitrary texts; the limits of 113 keys have to be compared with the schemas.", "anchors": ["lib/ocpp/v16/charge_point_configuration.cpp: set, isPositiveInteger, isBool", "config/v16/profile_schemas"]}
{"id": "C134", "title": "No request can make the station unable to start (OCPP 1.6)", "statement": "Whatever configuration changes were accepted, the station can be started again: the schemas admit the stored configuration.", "quantifier": "every history of accepted changes, at every point", "why_tests_cant": "Needs all keys and values against the schemas, and histories.", "anchors": ["lib/ocpp/v16/charge_point_configuration.cpp: ChargePointConfiguration, set, setAuthorizationKey", "config/v16/profile_schemas"]}
{"id": "C135", "title": "GetConfiguration is complete and keeps secrets (OCPP 1.6)", "statement": "In the answer to a GetConfiguration each requested key is either reported or in the list of unknown keys, a request without keys reports each supported key that has a value, an answer is always given, and no answer depends on the authorization key. The text of the price in a language is known exactly if CustomMultiLanguageMessages is true.", "quantifier": "every configuration and list of keys", "why_tests_cant": "Independence of a secret is a statement about pairs of stations; the rest about all configurations and lists.", "anchors": ["lib/ocpp/v16/charge_point_configuration.cpp: get, get_all_key_value", "lib/ocpp/v16/charge_point_impl.cpp: get_configuration_key, handleGetConfigurationRequest"]}
{"id": "C136", "title": "Keys reported as writable can be changed (OCPP 1.6)", "statement": "For each key that GetConfiguration reports as writable there is a value that ChangeConfiguration accepts.", "quantifier": "every key and configuration", "why_tests_cant": "A statement about the existence of values in each configuration.", "anchors": ["lib/ocpp/v16/charge_point_configuration.cpp: get, set"]}
{"id": "C137", "title": "The security profile only rises (OCPP 1.6)", "statement": "A request to change SecurityProfile is accepted exactly if the new profile is an integer greater than the current one and at most 3 and the station has what it needs (authorization key, certificates). After any history the profile is not lower than that of the last connection that was established, and a switch that was not confirmed by a connection is taken back.", "quantifier": "every request, every history of switches, failed connections, crashes and restarts", "why_tests_cant": "Needs all interleavings of switches, disconnections and crashes.", "anchors": ["lib/ocpp/v16/charge_point_impl.cpp: set_configuration_key_internal, switchSecurityProfile, stop", "lib/ocpp/v16/charge_point_configuration.cpp: setSecurityProfile"]}
{"id": "C138", "title": "Every request of the CSMS is answered exactly once", "statement": "Whatever request the CSMS sends, in whatever state the station is and whatever the request contains, the station sends exactly one answer to it, a CALLRESULT or a CALLERROR, and that answer carries the id of the request. If nothing goes wrong, requests the station implements are answered with a CALLRESULT, those it does not implement with a CALLERROR.", "quantifier": "every well-formed CALL, every state of the station, every outcome of the application's and the database's part", "why_tests_cant": "The combinations of actions, contents, states, exceptions and the points at which they are thrown are unbounded; a test follows one path.", "anchors": ["lib/ocpp/v16/charge_point_impl.cpp: message_callback, handle_message, handle*Request", "lib/ocpp/v2/charge_point.cpp: message_callback, handle_message", "lib/ocpp/v2/functional_blocks/*.cpp: handle_message", "include/ocpp/common/message_queue.hpp: receive"]}
{"id": "C139", "title": "Answers of the CSMS are not answered", "statement": "A CALLRESULT or CALLERROR of the CSMS, expected or not, never makes the station send a CALLRESULT or CALLERROR itself.", "quantifier": "every CALLRESULT and CALLERROR, every state of the station, every request in flight", "why_tests_cant": "Unexpected and late answers in every registration state are not covered by tests that play a well-behaved CSMS.", "anchors": ["lib/ocpp/v16/charge_point_impl.cpp: message_callback", "lib/ocpp/v2/charge_point.cpp: message_callback, send_not_implemented_error"]}
{"id": "C140", "title": "Requests of the CSMS do not block the station's own messages", "statement": "After a message of the CSMS has been processed, whatever it was, the station is free to send its own messages: it is not left waiting to send an answer that is never sent.", "quantifier": "every sequence of received texts, every state of the station at each of them", "why_tests_cant": "The state persists from one message to the next; every sequence of messages has to be considered.", "anchors": ["include/ocpp/common/message_queue.hpp: receive, push_call_result, push_call_error, reset_next_message_to_send", "lib/ocpp/v16/charge_point_impl.cpp: message_callback", "lib/ocpp/v2/charge_point.cpp: message_callback"]}
{"id": "C141", "title": "No message of the CSMS ends the process", "statement": "No text received from the CSMS, well-formed or not, ends the process of the station by an exception that is not caught or by a call of std::terminate.", "quantifier": "every received text, every state of the station", "why_tests_cant": "Every exception that any handler can throw has to be matched with the handlers of exceptions around it.", "anchors": ["lib/ocpp/v16/charge_point_impl.cpp: message_callback, handleResetRequest", "lib/ocpp/v2/charge_point.cpp: message_callback", "lib/ocpp/v2/functional_blocks/provisioning.cpp: validate_set_variable", "lib/ocpp/common/websocket/websocket_libwebsockets.cpp: thread_websocket_message_recv_loop"]}
{"id": "C142", "title": "What others have set survives restarts and upgrades", "statement": "A value of the device model that the CSMS or the station itself has set, and a monitor that the CSMS has set, are there unchanged after any number of further starts, as long as the component configuration still has the attribute (the variable).", "quantifier": "every history of starts (successful, failing, interrupted), with whatever sequence of configurations, mixed with writes and changes of monitors", "why_tests_cant": "It ranges over all pairs of old database and new configuration and over all histories; what one start does to a row depends on all that was stored before.", "anchors": ["lib/ocpp/v2/init_device_model_db.cpp: insert_variable_attribute_value, update_attributes, update_variable_monitors, update_component_variables", "lib/ocpp/v2/device_model_storage_sqlite.cpp: set_variable_attribute_value, set_monitoring_data"]}
{"id": "C143", "title": "After a start the device model is that of the configuration", "statement": "After a start, the device model lists exactly the components and variables of the component configuration, each once, with their characteristics, attributes with mutability, and monitors (besides those set by the CSMS); a custom component description replaces the standardized one.", "quantifier": "every reachable database, every configuration, every pair of directories", "why_tests_cant": "Insertion, update and removal on four levels have to fit together for every difference between the stored and the new configuration.", "anchors": ["lib/ocpp/v2/init_device_model_db.cpp: insert_components, update_component_variables, update_variable, update_attributes, update_variable_monitors, remove_not_existing_components_from_db, get_all_component_configs", "lib/ocpp/v2/device_model_storage_sqlite.cpp: get_device_model"]}
{"id": "C144", "title": "Values of the configuration take effect where nobody has chosen another one", "statement": "After a start, an attribute that nobody else has set has the value (or the default value) the component configuration gives it, also if the configuration has changed since the last start.", "quantifier": "every reachable database, every configuration", "why_tests_cant": "It depends on the whole history of the attribute: who has written it last, and what earlier configurations said.", "anchors": ["lib/ocpp/v2/init_device_model_db.cpp: insert_attribute, update_attribute, insert_variable_attribute_value, is_attribute_different"]}
{"id": "C145", "title": "A start that fails changes nothing", "statement": "A component configuration with a value that does not have the type of its variable is refused; a start that ends with an exception leaves the database as it was; a configuration without errors is accepted.", "quantifier": "every reachable database, every configuration", "why_tests_cant": "Every point at which the start can fail has to be considered, with everything that was committed before it.", "anchors": ["lib/ocpp/v2/init_device_model_db.cpp: initialize_database, check_integrity, check_integrity_value_type, remove_not_existing_components_from_db, insert_variable_monitor"]}
{"id": "C146", "title": "Interrupted starts do no harm", "statement": "If the station loses power during starts, any number of times and at any points, the next start ends as the first one would have ended, with the same database.", "quantifier": "every reachable database or none, every configuration, every sequence of interruptions at every point", "why_tests_cant": "Every crash point between the separately committed steps, repeated arbitrarily.", "anchors": ["lib/ocpp/v2/init_device_model_db.cpp: initialize_database, execute_init_sql, remove_not_existing_components_from_db", "config/v2/device_model_migrations: 1_up-initial.sql"]}
{"id": "C147", "title": "A restart without changes changes nothing", "statement": "A start with the same component configuration as the start before, with nothing done between, leaves every row of the device model database as it is, and so does every further one.", "quantifier": "every reachable database, every configuration, every number of restarts", "why_tests_cant": "Idempotence for every configuration and every stored state, not for sample files.", "anchors": ["lib/ocpp/v2/init_device_model_db.cpp: initialize_database, is_variable_different, is_attribute_different, is_monitor_different, update_attribute"]}
{"id": "C148", "title": "Basic authentication carries the identity and the key", "statement": "With security profile 1 or 2 the handshake carries the header \"Basic \" and the Base64 encoding of identity, colon and authorization key; decoding it gives back exactly these bytes, for every identity and key, and different credentials give different headers (identities contain no colon). With other profiles there is no such header. Decoding stops at the first character that is not in the alphabet.", "quantifier": "all identities, keys (any bytes) and security profiles", "why_tests_cant": "Base64 must be right for every length and every byte; tests use a few keys.", "anchors": ["3rd_party/websocketpp_utils/base64.hpp: base64_encode", "lib/ocpp/common/websocket/websocket_base.cpp: getAuthorizationHeader", "lib/ocpp/common/websocket/websocket_libwebsockets.cpp: process_callback (LWS_CALLBACK_CLIENT_APPEND_HANDSHAKE_HEADER)"]}
{"id": "C149", "title": "TLS is used exactly if the security profile demands it", "statement": "Whatever the configured address, identity and security profile are: if the station connects, the profile is 0 to 3, TLS is used exactly for 2 and 3, and an address whose scheme says otherwise is refused. The port is between 1 and 65535 and the requested path ends with a slash and the identity.", "quantifier": "all strings as address and identity, all integers as security profile", "why_tests_cant": "An address can be any string; a single one that is connected to without TLS under profile 2 breaks the security profile.", "anchors": ["lib/ocpp/common/websocket/websocket_uri.cpp: Uri::parse_and_validate, path_split_last_segment", "3rd_party/websocketpp_utils/uri.hpp: ev_uri", "lib/ocpp/common/websocket/websocket_libwebsockets.cpp: thread_websocket_client_loop, set_connection_options"]}
{"id": "C150", "title": "The address leads to its host, port and path", "statement": "A well-formed address (scheme or none, host or IPv6 address in brackets, port or none, path or none) leads to that host, that port or the default port, and that path, to which the identity is added unless it is the last segment already. Malformed addresses are refused. (Violated for a path that ends with the identity and a slash, and for some malformed addresses.)", "quantifier": "all addresses, identities, security profiles", "why_tests_cant": "The combinations of optional parts and the texts of each part are unbounded.", "anchors": ["lib/ocpp/common/websocket/websocket_uri.cpp: Uri::parse_and_validate, path_split_last_segment", "3rd_party/websocketpp_utils/uri.hpp: ev_uri", "lib/ocpp/common/websocket/websocket_libwebsockets.cpp: thread_websocket_client_loop, set_connection_options"]}
{"id": "C151", "title": "A bad address is refused in one way", "statement": "Every address is accepted or refused with std::invalid_argument, the exception that the callers handle. (Violated by ports with twenty digits.)", "quantifier": "all strings as address", "why_tests_cant": "The exception depends on the text of the port.", "anchors": ["lib/ocpp/common/websocket/websocket_uri.cpp: Uri::parse_and_validate, path_split_last_segment", "3rd_party/websocketpp_utils/uri.hpp: ev_uri", "lib/ocpp/common/websocket/websocket_libwebsockets.cpp: thread_websocket_client_loop, set_connection_options", "lib/ocpp/v2/connectivity_manager.cpp: get_ws_connection_options"]}
{"id": "C152", "title": "The reported address is the one in use", "statement": "The address that Uri::string reports leads to the same host, port, path and transport as the one that was configured. (Violated for IPv6 addresses.)", "quantifier": "all accepted addresses", "why_tests_cant": "Round trip over all addresses.", "anchors": ["lib/ocpp/common/websocket/websocket_uri.cpp: Uri::parse_and_validate, path_split_last_segment", "3rd_party/websocketpp_utils/uri.hpp: ev_uri", "lib/ocpp/common/websocket/websocket_libwebsockets.cpp: thread_websocket_client_loop, set_connection_options"]}
{"id": "C153", "title": "Waiting times between connection attempts", "statement": "After the n-th failure in a row (or loss of the connection) the station waits at least RetryBackOffWaitMinimum, doubled min(n-1, RetryBackOffRepeatTimes) times, and at most the same with RetryBackOffRandomRange added before each doubling; once the number of doublings is reached, the time stays the same. No setting makes the computation overflow. (Violated for the last sentence.)", "quantifier": "all settings, histories of attempts and random numbers", "why_tests_cant": "The bound must hold after every number of failures and all random draws.", "anchors": ["lib/ocpp/common/websocket/websocket_libwebsockets.cpp: thread_websocket_client_loop, on_conn_connected, on_conn_fail, on_conn_close", "lib/ocpp/common/websocket/websocket_base.cpp: get_reconnect_interval"]}
{"id": "C154", "title": "Number of connection attempts", "statement": "With a limit the station gives up after that many attempts in a row without a connection and tells the application; without a limit it never gives up. (Violated: it makes one attempt more.)", "quantifier": "all limits and histories of attempts", "why_tests_cant": "Histories of failures and successes are unbounded.", "anchors": ["lib/ocpp/common/websocket/websocket_libwebsockets.cpp: thread_websocket_client_loop, on_conn_connected, on_conn_fail, on_conn_close", "lib/ocpp/common/websocket/websocket_base.cpp: get_reconnect_interval"]}
{"id": "C155", "title": "Reports about the connection are in order", "statement": "The application is told about a connection only when there is none, about the end of the connection attempts exactly once and exactly if they ended, with a final report that there is no connection, and there are no attempts or reports after that.", "quantifier": "all histories of attempts, losses and calls of close, all settings", "why_tests_cant": "All interleavings of failures and closes.", "anchors": ["lib/ocpp/common/websocket/websocket_libwebsockets.cpp: thread_websocket_client_loop, on_conn_connected, on_conn_fail, on_conn_close", "lib/ocpp/common/websocket/websocket_base.cpp: get_reconnect_interval"]}
{"id": "C156", "title": "A dead peer is noticed", "statement": "With a ping interval, a connected station closes the connection at most interval + timeout + 2 seconds after the peer stopped answering, whatever happened before.", "quantifier": "all histories, intervals and timeouts (a timeout is not negative)", "why_tests_cant": "All states in which the peer can fall silent.", "anchors": ["lib/ocpp/common/websocket/websocket_base.cpp: set_websocket_ping_interval, on_pong_timeout", "lib/ocpp/common/websocket/websocket_libwebsockets.cpp: process_callback, ping"]}
{"id": "C157", "title": "A connection is closed only for a pong that is missing on it", "statement": "A connection is closed for a missing pong only if a ping was sent on this connection and has been unanswered for longer than the timeout. (Violated after a connection was lost with an unanswered ping, and for empty payloads.)", "quantifier": "all histories, intervals and timeouts", "why_tests_cant": "All orders of losses, pings and pongs.", "anchors": ["lib/ocpp/common/websocket/websocket_base.cpp: set_websocket_ping_interval, on_pong_timeout", "lib/ocpp/common/websocket/websocket_libwebsockets.cpp: process_callback, ping"]}
{"id": "C158", "title": "The station keeps trying to connect (OCPP 1.6)", "statement": "From the time the application asks for a connection until it disconnects, the station is connected, trying to connect, or will try after a timer. (Violated after a missing pong, and when the application connects during a switch of the security profile.)", "quantifier": "all histories of calls, losses, failures, timers, profile switches", "why_tests_cant": "All interleavings of network events, timers and calls.", "anchors": ["lib/ocpp/v16/charge_point_impl.cpp: init_websocket, connect_websocket, disconnect_websocket, switchSecurityProfile", "lib/ocpp/common/websocket/websocket_libwebsockets.cpp: start_connecting, close, reconnect"]}
{"id": "C159", "title": "After disconnecting the station does not connect (OCPP 1.6)", "statement": "After the application disconnected, no connection is opened until it asks for one. (Violated if it disconnects while the station is still trying.)", "quantifier": "all histories", "why_tests_cant": "All interleavings of network events, timers and calls.", "anchors": ["lib/ocpp/v16/charge_point_impl.cpp: init_websocket, connect_websocket, disconnect_websocket, switchSecurityProfile", "lib/ocpp/common/websocket/websocket_libwebsockets.cpp: start_connecting, close, reconnect"]}
{"id": "C160", "title": "Messages are transmitted in order, once per call", "statement": "What is transmitted on the WebSocket are messages given to send, unchanged, at most once for each call, in the order of the calls, whatever happens to the connection.", "quantifier": "all histories of sends, writable events, failing writes, losses and reconnections", "why_tests_cant": "All interleavings of sending threads and the network.", "anchors": ["lib/ocpp/common/websocket/websocket_libwebsockets.cpp: send, poll_message, on_conn_writable, send_internal"]}
{"id": "C161", "title": "The result of send tells whether the message was transmitted", "statement": "If send returns true, the message was transmitted; if it returns false, it was not and will not be; on a connection that stays up every queued message is transmitted. (Violated for false, after a timeout or loss, and for empty messages.)", "quantifier": "all histories", "why_tests_cant": "All times at which a sender can give up.", "anchors": ["lib/ocpp/common/websocket/websocket_libwebsockets.cpp: send, poll_message, on_conn_writable, send_internal"]}
{"id": "C162", "title": "Received messages are passed on whole", "statement": "In whatever pieces and frames they arrive, messages of the peer are passed on complete, in order, once each; a message cut off by a loss leaves no trace. (Violated for messages in several frames.)", "quantifier": "all messages, splittings and losses", "why_tests_cant": "All ways of splitting messages.", "anchors": ["lib/ocpp/common/websocket/websocket_libwebsockets.cpp: process_callback (LWS_CALLBACK_CLIENT_RECEIVE), on_conn_message"]}
{"id": "C163", "title": "OCPP 1.6: MeterValues tell exactly what was measured", "statement": "At every sample time of a transaction and every clock-aligned time the charge point sends MeterValues.req with exactly the readings that the last reported measurement has for the measurands of the configuration key: for each measurand the total and then its phases, with the right value, unit, location, context and time. Nothing is invented, nothing that was measured and is asked for is left out, and nothing is sent if nothing was measured.", "quantifier": "every measurement, every list of measurands, every history of measurements, offers, transactions and timers", "why_tests_cant": "A test has a handful of measurements; which of the optional values are present and which measurands are configured has far more combinations.", "anchors": ["lib/ocpp/v16/charge_point_impl.cpp: get_latest_meter_value, send_meter_value, clock_aligned_meter_values_sample", "lib/ocpp/v16/charge_point_configuration.cpp: csv_to_measurand_with_phase_vector, init_supported_measurands"]}
{"id": "C164", "title": "OCPP 1.6: StopTransaction carries the meter values of the transaction", "statement": "The transaction data of StopTransaction.req are, in order, the signed start value, for each sample time and each clock-aligned time during the transaction the readings that StopTxnSampledData and StopTxnAlignedData ask for, and the signed final value; nothing from before the start, nothing else.", "quantifier": "every configuration of the four keys, every history before and during the transaction", "why_tests_cant": "The data depend on everything that happened during the transaction and on four keys together.", "anchors": ["lib/ocpp/v16/charge_point_impl.cpp: get_filtered_transaction_data, on_transaction_started, on_transaction_stopped, send_meter_value", "lib/ocpp/v16/transaction.cpp: add_meter_value"]}
{"id": "C165", "title": "A cost message asks for a meter value at an energy: it is sent once, when the energy is reached", "statement": "After a RunningCost (CostUpdated) message with an energy trigger, the first measurement whose register reaches the energy causes one meter value with that register value; earlier measurements and later ones cause none. After a message without triggers for energy and power, measurements cause no meter values.", "quantifier": "every energy, every state of the connector before the message, every sequence of measurements, status changes and timers after it", "why_tests_cant": "Which measurement is the first to reach the energy depends on the whole sequence.", "anchors": ["lib/ocpp/v16/charge_point_impl.cpp: handle_set_session_cost, send_meter_value_on_pricing_trigger, reset_pricing_triggers", "lib/ocpp/v2/evse.cpp: set_meter_value_pricing_triggers, send_meter_value_on_pricing_trigger, reset_pricing_triggers", "lib/ocpp/v2/functional_blocks/tariff_and_cost.cpp: handle_costupdated_req"]}
{"id": "C166", "title": "A cost message asks for a meter value at a power: crossings are told, without a flood", "statement": "After a message with a power trigger, the meter values caused by measurements tell powers on alternating sides of the threshold, each at least 5 % beyond it (no flood while the power fluctuates near the threshold). And no crossing is missed: whenever the measured power is at least 5 % above (below) the threshold, the last power told to the CSMS in this transaction is above (below) it.", "quantifier": "every threshold, every history of cost messages, measurements, status changes, timers and ends of transactions", "why_tests_cant": "Alternation and missed crossings are properties of whole sequences of measurements and of several messages.", "anchors": ["lib/ocpp/v16/charge_point_impl.cpp: handle_set_session_cost, send_meter_value_on_pricing_trigger, reset_pricing_triggers", "lib/ocpp/v2/evse.cpp: set_meter_value_pricing_triggers, send_meter_value_on_pricing_trigger, reset_pricing_triggers"]}
{"id": "C167", "title": "A cost message asks for a meter value at a time: it is sent at that time, once", "statement": "After a message with a time trigger that is not in the past, the energy of the last measurement is sent when that time is reached, once, and at no other time; the triggers of a message replace those of earlier ones.", "quantifier": "every time, every DisplayTimeOffset, every state before the message, every sequence of measurements and clock readings after it", "why_tests_cant": "Time zones, earlier messages and the order of measurements and timers cannot be enumerated.", "anchors": ["lib/ocpp/v16/charge_point_impl.cpp: set_connector_trigger_metervalue_timer", "lib/ocpp/v2/evse.cpp: set_meter_value_pricing_triggers, send_meter_value_on_pricing_trigger, reset_pricing_triggers"]}
{"id": "C168", "title": "OCPP 1.6: a cost message asks for meter values at changes of the status", "statement": "After a RunningCost message with status triggers, a meter value with the energy of the last measurement is sent whenever the status of the connector becomes one of them, and only then.", "quantifier": "every list of statuses, every history before the message, every sequence of statuses and measurements after it", "why_tests_cant": "What counts as a change depends on statuses and messages of the past.", "anchors": ["lib/ocpp/v16/charge_point_impl.cpp: status callback in the constructor, handle_set_session_cost, reset_pricing_triggers"]}
{"id": "C169", "title": "OCPP 1.6: the cost of a transaction reaches its session", "statement": "A RunningCost or FinalCost message that names a transaction is given to the application for the session of that transaction, and its triggers are set at the connector of that transaction; if there is no such transaction it is answered with Rejected, and never given to another session.", "quantifier": "every set of running transactions, every value of transactionId", "why_tests_cant": "The values of transactionId (numbers of any size, any text) cannot be enumerated.", "anchors": ["lib/ocpp/v16/charge_point_impl.cpp: handle_set_session_cost", "lib/ocpp/v16/transaction.cpp: get_connector_from_transaction_id", "lib/ocpp/common/types.cpp: from_json(RunningCost)"]}
{"id": "C170", "title": "OCPP 1.6: the price for an id token reaches the right session", "statement": "A SetUserPrice message for an id token is given to the application for the running session that was authorised with that token (id tokens are not case sensitive); if there is none, for the token.", "quantifier": "every set of running and stopped transactions, every token", "why_tests_cant": "Depends on all transactions at the time, including stopped ones whose confirmation is missing.", "anchors": ["lib/ocpp/v16/charge_point_impl.cpp: handle_set_user_price", "lib/ocpp/v16/transaction.cpp: get_transaction_from_id_tag"]}
{"id": "C171", "title": "OCPP 1.6: statuses sent on request are the current ones", "statement": "Whenever the CSMS asks for the status of an upload or a firmware update, it gets the one the application reported last, with its request id, or Idle if that upload or update is over or there was none; each report itself is sent at once; asking changes nothing else. Connectors made unavailable for an update become available again exactly when its installation is reported as over. (Violated: before the first report of a log upload or signed update values are sent that were never set; asking for the status of an installed update makes connectors unavailable again.)", "quantifier": "all histories of reports, requests and other events", "why_tests_cant": "The status depends on the whole history of reports of four kinds.", "anchors": ["lib/ocpp/v16/charge_point_impl.cpp: handleTriggerMessageRequest, handleExtendedTriggerMessageRequest, on_log_status_notification, on_firmware_update_status_notification, log_status_notification, diagnostic_status_notification, firmware_status_notification, signed_firmware_update_status_notification"]}
{"id": "C172", "title": "OCPP 1.6: an accepted trigger is followed by the messages asked for", "statement": "TriggerMessage and ExtendedTriggerMessage are answered Accepted exactly if there is something to send, and then exactly the messages asked for are sent, for the connector named or else for all, with the current statuses; a connector that does not exist is rejected without effect. (Violated for meter values and certificates in some situations.)", "quantifier": "all histories, messages and connector numbers", "why_tests_cant": "All histories and numbers.", "anchors": ["lib/ocpp/v16/charge_point_impl.cpp: handleTriggerMessageRequest, handleExtendedTriggerMessageRequest, send_meter_value, sign_certificate"]}
{"id": "C173", "title": "OCPP 1.6: Reset", "statement": "A reset that is not allowed is rejected without effect. An accepted one asks exactly the running transactions to stop, with the reason of its kind; the application is told to reset once, with this kind, not before all transactions ended or the configured time passed, and at the latest then. It is told without delay if no transaction runs. (Violated: it is not told promptly when the last transaction ended, if the CSMS does not confirm it, or confirms it at the wrong moment.)", "quantifier": "all histories of requests, transactions and confirmations, all interleavings with the waiting thread", "why_tests_cant": "Schedules of threads, lost notifications.", "anchors": ["lib/ocpp/v16/charge_point_impl.cpp: handleResetRequest, handleStopTransactionResponse, stop_all_transactions"]}
{"id": "C174", "title": "OCPP 1.6: DataTransfer reaches who is responsible", "statement": "A DataTransfer is given to the built-in ISO 15118 functions, or else to the function registered last for its vendor and message, or else to the function for all messages, and to nobody else; their answer is sent; without any of them the answer says what is unknown. (Violated if a registered function answers Unknown..., for ids in other letter case, and if a function registers another.)", "quantifier": "all histories of registrations, all requests", "why_tests_cant": "All histories of registrations and all texts.", "anchors": ["lib/ocpp/v16/charge_point_impl.cpp: handleDataTransferRequest, register_data_transfer_callback"]}
{"id": "C175", "title": "OCPP 1.6: UnlockConnector", "statement": "For a connector that exists the answer is what the application says of the lock; the transaction is asked to stop exactly if unlocking is not supported and the configuration demands it; other connectors are never unlocked. (Violated: an application that stops the transaction when asked to hangs.)", "quantifier": "all connector numbers, configurations, transactions and behaviours of the application", "why_tests_cant": "All numbers and configurations; locks held during calls of the application.", "anchors": ["lib/ocpp/v16/charge_point_impl.cpp: handleUnlockConnectorRequest, stop_transaction"]}
{"id": "C176", "title": "OCPP 1.6: reservations are decided by the application", "statement": "The application is asked exactly if the connector is neither faulted nor in use by somebody who stands there, and reservations (of the charge point as a whole) are supported; its answer is sent, else the one that says why not. Cancelling likewise. (Violated: the application is asked for connectors that do not exist.)", "quantifier": "all connector numbers, statuses and configurations", "why_tests_cant": "All numbers and configurations.", "anchors": ["lib/ocpp/v16/charge_point_impl.cpp: handleReserveNowRequest, handleCancelReservationRequest"]}
{"id": "C177", "title": "Phase rotations (OCPP 1.6)", "statement": "ChangeConfiguration accepts a value for ConnectorPhaseRotation exactly if it is, white space aside, a list of elements separated by commas, each of which names connector 0 or a connector of the station, a point, and NotApplicable, Unknown or one of the six orders of the phases.", "quantifier": "every text, every number of connectors", "why_tests_cant": "The texts are arbitrary, and so are the numbers of connectors.", "anchors": ["lib/ocpp/v16/charge_point_configuration.cpp: set, isConnectorPhaseRotationValid, checkTimeOffset"]}
{"id": "C178", "title": "Offsets of the time (OCPP 1.6)", "statement": "ChangeConfiguration accepts a value for TimeOffset and TimeOffsetNextTransition exactly if it is an integer from -24 to 24, a colon and an integer from 0 to 59.", "quantifier": "every text", "why_tests_cant": "The texts are arbitrary.", "anchors": ["lib/ocpp/v16/charge_point_configuration.cpp: set, isConnectorPhaseRotationValid, checkTimeOffset"]}
{"id": "C179", "title": "Rotating a log loses nothing but the oldest files", "statement": "After any history of entries, restarts of the process and rotations, the files of a log have, in the order of their names, all entries that were written, except those of files deleted as the oldest; also if the process ends at any point of a rotation. (Violated: with dates as suffixes and a limit, the newest of the older files is deleted; from twelve files on, the wrong one; without a limit and numbers, files are replaced from ten on; two rotations in the same second; other files with the name of the log.)", "quantifier": "all histories of entries, restarts and ends of the process, all limits and contents of the directory", "why_tests_cant": "The number of rotations and of files, and the points at which the process ends, are unbounded.", "anchors": ["lib/ocpp/common/ocpp_logging.cpp: rotate_log, rotate_log_if_needed, initialize"]}
{"id": "C180", "title": "Logs keep to their limits", "statement": "There are never more files of a log than configured, and no file is longer than the configured size plus one entry. (Violated: when there are more files, e.g. after a change of the limit, their number does not decrease.)", "quantifier": "all histories, limits and contents of the directory", "why_tests_cant": "Number and length of the entries are unbounded.", "anchors": ["lib/ocpp/common/ocpp_logging.cpp: rotate_log, rotate_log_if_needed, log_output"]}
{"id": "C181", "title": "Every message is logged once", "statement": "The log of the charging station has every message that is sent or received exactly once and in order; so has the log of each session for the messages since its start; events of the connection and raw messages likewise. (Violated: while n sessions are logged, events of the connection and raw messages are written n more times to the log of the charging station, and not to those of the sessions.)", "quantifier": "all histories of messages, events, starts and ends of sessions", "why_tests_cant": "Any number of sessions may run at the same time, and start and end between any two messages.", "anchors": ["lib/ocpp/common/ocpp_logging.cpp: charge_point, central_system, sys, raw, start_session_logging, stop_session_logging"]}
{"id": "C182", "title": "Responses are logged with the action they answer", "statement": "A response is logged with the type of the response to the call with the same id. (Violated: ids that the CSMS and the charging station use at the same time, and sessions that start between the call and the response.)", "quantifier": "all histories of messages, with calls of both sides pending", "why_tests_cant": "The messages between call and response are arbitrary.", "anchors": ["lib/ocpp/common/ocpp_logging.cpp: format_message"]}
{"id": "C183", "title": "The HTML log shows messages as they are", "statement": "What a browser displays of the line of a message is the time, the direction, the type and the text of the message, character by character; nothing of a message becomes part of the page. (Violated: the action of a message of the CSMS and raw messages are written as they are; `&` is not encoded.)", "quantifier": "every message", "why_tests_cant": "Messages are arbitrary texts chosen by the CSMS.", "anchors": ["lib/ocpp/common/ocpp_logging.cpp: html_encode, write_html_log_to_file"]}
{"id": "C184", "title": "Logging a security event returns", "statement": "Security events are written to the log, and the function returns, also when the log is rotated. (Violated: when the oldest file is deleted, this is reported as a security event while the log is in use: the thread waits for itself for ever, and with it every thread that logs.)", "quantifier": "all states of the security log", "why_tests_cant": "It depends on the sizes and the number of the files.", "anchors": ["lib/ocpp/common/ocpp_logging.cpp: security", "lib/ocpp/v2/charge_point.cpp: configure_message_logging_format", "lib/ocpp/v16/charge_point_impl.cpp: ChargePointImpl, securityEventNotification", "lib/ocpp/v2/functional_blocks/security.cpp: security_event_notification_req"]}
{"id": "C185", "title": "Logging needs bounded memory", "statement": "What is remembered for logging is bounded by the number of calls that are not answered. (Violated: an element for every id is kept for ever.)", "quantifier": "all histories of messages", "why_tests_cant": "The history has no end.", "anchors": ["lib/ocpp/common/ocpp_logging.cpp: format_message"]}
{"id": "C186", "title": "Files of HTML logs are HTML", "statement": "Every file of an HTML log begins with the opening tags, and nothing follows the closing tags. (Violated: after a restart entries follow the closing tags.)", "quantifier": "all histories of entries, rotations, ends and starts of the process", "why_tests_cant": "The history is arbitrary.", "anchors": ["lib/ocpp/common/ocpp_logging.cpp: initialize, ~MessageLogging, rotate_log_if_needed, open_html_tags, close_html_tags"]}
{"id": "C187", "title": "OCPP 2.x: every firmware status is notified, none twice", "statement": "A firmware status that the application reports is sent with its request id, unless it was the last one sent; no status is sent twice in a row with the same id unless triggered.", "quantifier": "all histories of reported statuses, triggers, updates and transactions", "why_tests_cant": "The order of statuses, ids and transactions is arbitrary.", "anchors": ["lib/ocpp/v2/functional_blocks/firmware_update.cpp: on_firmware_update_status_notification"]}
{"id": "C188", "title": "OCPP 2.x: a triggered firmware status is the last one", "statement": "A FirmwareStatusNotification that the CSMS triggers has the last status that was sent and its request id; Idle without id if there was none or after an installation. (Violated: when the application reports a status without id, the triggered one has the id of an earlier update.)", "quantifier": "all histories", "why_tests_cant": "The history is arbitrary.", "anchors": ["lib/ocpp/v2/functional_blocks/firmware_update.cpp: on_firmware_status_notification_request"]}
{"id": "C189", "title": "OCPP 2.x: security events of firmware updates", "statement": "There is exactly one security event for each notification of Installed and InvalidSignature and for each refusal because of the certificate, and no other.", "quantifier": "all histories of reported statuses and requests", "why_tests_cant": "The history is arbitrary.", "anchors": ["lib/ocpp/v2/functional_blocks/firmware_update.cpp: on_firmware_update_status_notification, handle_firmware_update_req"]}
{"id": "C190", "title": "OCPP 2.x: connectors during firmware updates", "statement": "The connectors become unavailable exactly when the update is ready to be installed: Downloaded, or SignatureVerified for updates with certificate or signature; they are restored exactly when it ends. (Violated: a request that is refused changes what is waited for.)", "quantifier": "all histories of reported statuses and requests", "why_tests_cant": "The history is arbitrary.", "anchors": ["lib/ocpp/v2/functional_blocks/firmware_update.cpp: on_firmware_update_status_notification, handle_firmware_update_req"]}
{"id": "C191", "title": "OCPP 2.x: updates are decided by the application", "statement": "The application is told of an update exactly if it has no certificate or a valid one, and its answer is sent; otherwise InvalidCertificate is sent. There is exactly one answer.", "quantifier": "all requests and states", "why_tests_cant": "All combinations.", "anchors": ["lib/ocpp/v2/functional_blocks/firmware_update.cpp: handle_firmware_update_req"]}
{"id": "C192", "title": "OCPP 2.x: which display messages are shown", "statement": "The application is asked to show a message exactly if display messages are available, its priority and format are listed as supported, its transaction (if any) is running and its state (if any, and if states are listed) is listed; it gets what the message says and its answer is the station's. Otherwise the answer names the first condition that fails. (Violated: the display component and the further texts are dropped; stations without the lists throw instead of answering Rejected.)", "quantifier": "all messages, configured lists, open transactions and answers of the application", "why_tests_cant": "Lists, texts and messages are unbounded.", "anchors": ["lib/ocpp/v2/functional_blocks/display_message.cpp: DisplayMessageBlock::handle_set_display_message, message_info_to_display_message", "lib/ocpp/common/utils.cpp: split_string, trim_string", "lib/ocpp/v2/evse_manager.cpp: EvseManager::get_transaction_evseid"]}
{"id": "C193", "title": "OCPP 2.x: display messages are reported as they are", "statement": "GetDisplayMessages is answered with Accepted exactly if the station has messages; then one notification with the id of the request has all of them, in order, with what they say; a message that was set is reported as it was set. (Violated: messages without id or priority are left out, identifiers of sessions and tokens are sent as transaction ids, a too long text makes the request fail.)", "quantifier": "all lists of messages of the application", "why_tests_cant": "Lists and texts are unbounded.", "anchors": ["lib/ocpp/v2/functional_blocks/display_message.cpp: DisplayMessageBlock::handle_get_display_message, display_message_to_message_info_type", "include/ocpp/common/string.hpp: String::set"]}
{"id": "C194", "title": "OCPP 2.x: OCSP results are stored all or not at all", "statement": "The OCSP results of the certificates are stored only at the end of an update in which the CSMS gave one (Accepted, with a result) for each certificate, and then all of them, each for the certificate it was given for; an update that fails, is not at its end or breaks off stores nothing.", "quantifier": "all histories of starts, stops, triggers, answers, failures and timeouts, all lists of certificates", "why_tests_cant": "Interleavings of the updater's thread with the reading thread and unbounded lists of certificates.", "anchors": ["lib/ocpp/v2/ocsp_updater.cpp: OcspUpdater::execute_ocsp_update, updater_thread_loop"]}
{"id": "C195", "title": "OCPP 2.x: OCSP updates are made in time", "statement": "After a complete update the next one begins when the interval has passed and not before, after a failed one when the retry interval has passed; a trigger makes one due at once, also one that came while an update was under way.", "quantifier": "all histories of starts, stops, triggers, answers, failures and timeouts", "why_tests_cant": "Unbounded histories over time.", "anchors": ["lib/ocpp/v2/ocsp_updater.cpp: OcspUpdater::updater_thread_loop, trigger_ocsp_cache_update"]}
{"id": "C196", "title": "OCPP 2.x: OCSP updates do not end the process", "statement": "No answer of the CSMS and no history of acceptances, triggers and stops ends the process. (Violated: an answer with an unknown status, or a second acceptance of the station, does.)", "quantifier": "all histories of starts, stops, triggers, answers, failures and timeouts", "why_tests_cant": "Exceptions and threads: depends on the interleaving and on every form an answer may have.", "anchors": ["lib/ocpp/v2/ocsp_updater.cpp: OcspUpdater::start, updater_thread_loop", "lib/ocpp/v2/functional_blocks/provisioning.cpp: Provisioning::handle_boot_notification_response"]}
{"id": "C197", "title": "OCPP 2.x: the station reads while it updates OCSP results", "statement": "While a request for the status of a certificate is outstanding, the answer of the CSMS to it is read. (Violated: after a CertificateSigned request the reading thread waits for the update, which waits for the answer.)", "quantifier": "all states of the updater and all answers", "why_tests_cant": "A schedule of two threads.", "anchors": ["lib/ocpp/v2/ocsp_updater.cpp: OcspUpdater::trigger_ocsp_cache_update, updater_thread_loop", "lib/ocpp/v2/functional_blocks/security.cpp: Security::handle_certificate_signed_req"]}
{"id": "C198", "title": "OCPP 1.6: certificates are checked regularly", "statement": "After the CSMS accepted the station, the client certificate (security profile 3) and the V2G certificate (ISO 15118 certificate management) are checked after 60 seconds and then every 12 hours; a new one is requested exactly if it expires in less than 30 days. Stations without these features check nothing. (Violated: after the connection was lost and is there again, they are never checked.)", "quantifier": "all histories of connections, configuration changes and expiry days, all times", "why_tests_cant": "Unbounded time; what is missing shows only after hours.", "anchors": ["lib/ocpp/v16/charge_point_impl.cpp: ChargePointImpl (constructor, client_certificate_timer, v2g_certificate_timer), init_websocket, connected_callback, handleBootNotificationResponse"]}
{"id": "C199", "title": "OCPP 1.6: OcspRequestInterval", "statement": "The OCSP results of the V2G certificates are requested every OcspRequestInterval seconds. (Violated: the interval counts once, for the first time after it was set; from then on, and after the station was accepted, it is 12 hours.)", "quantifier": "all intervals, all histories without further settings", "why_tests_cant": "Unbounded time.", "anchors": ["lib/ocpp/v16/charge_point_impl.cpp: ChargePointImpl (constructor, ocsp_request_timer), handleChangeConfigurationRequest", "config/v16/profile_schemas/Internal.json: OcspRequestInterval"]}
{"id": "C200", "title": "OCPP 2.x: the running cost reaches the application", "statement": "If costs are available and enabled, then for each TransactionEvent answer with a total cost the application gets exactly one running cost: that cost, for that transaction, with the largest energy among the meter values sent, final exactly if the transaction ended; and no other running costs. (Violated: without a configured currency there is an exception and the rest of the answer is ignored, so a refused transaction goes on; and an energy value without a measurand is not taken for one.)", "quantifier": "all configurations, TransactionEvent requests with any meter values, and answers", "why_tests_cant": "All combinations of optional fields and configuration.", "anchors": ["lib/ocpp/v2/functional_blocks/tariff_and_cost.cpp: handle_cost_and_tariff, send_meter_value_on_pricing_trigger", "lib/ocpp/v2/functional_blocks/transaction.cpp: handle_transaction_event_response"]}
{"id": "C201", "title": "OCPP 2.x: personal messages reach the application", "statement": "A personal message in a TransactionEvent answer is passed to the application, and with it the further messages whose language the station has. (Violated: with costs enabled a message without a total cost is lost; without costs the further messages are lost.)", "quantifier": "all configurations, requests and answers", "why_tests_cant": "All combinations of optional fields and configuration.", "anchors": ["lib/ocpp/v2/functional_blocks/tariff_and_cost.cpp: handle_cost_and_tariff"]}
{"id": "C202", "title": "OCPP 2.x: CostUpdated", "statement": "A CostUpdated request is answered once; if costs are enabled the application gets that cost for that transaction and the triggers for meter values are set for the EVSE of that transaction only. (Violated: without a currency nothing is told; custom data without a state gives a cost with an undefined state.)", "quantifier": "all configurations, requests and transactions", "why_tests_cant": "All combinations of optional fields, with and without a matching transaction.", "anchors": ["lib/ocpp/v2/functional_blocks/tariff_and_cost.cpp: handle_costupdated_req", "lib/ocpp/common/types.cpp: from_json(RunningCost)"]}
{"id": "C203", "title": "OCPP 2.x: certificates are checked while connected", "statement": "A station that is accepted and connected with security profile 3, whatever happened before, checks its client certificate within the configured first delay or interval, and requests a new one exactly if it expires in less than 30 days; likewise the V2G certificate. Offline nothing is checked. (Violated with OfflineThreshold 0: after a reconnection nothing is ever checked.)", "quantifier": "all configurations, histories of connections, acceptances and times", "why_tests_cant": "Unbounded histories and hours of waiting.", "anchors": ["lib/ocpp/v2/functional_blocks/security.cpp: init_certificate_expiration_check_timers, stop_certificate_expiration_check_timers, scheduled_check_client_certificate_expiration, scheduled_check_v2g_certificate_expiration", "lib/ocpp/v2/charge_point.cpp: websocket_connected_callback, websocket_disconnected_callback"]}
{"id": "C204", "title": "OCPP 2.x: statuses after a reconnection", "statement": "When an accepted station connects again the statuses of all connectors are sent if it was offline longer than OfflineThreshold, else of those that changed. (Violated with OfflineThreshold 0: none are sent, however long it was offline.)", "quantifier": "all thresholds, histories before and while offline", "why_tests_cant": "Depends on any history and on how long the station is offline.", "anchors": ["lib/ocpp/v2/charge_point.cpp: websocket_connected_callback, websocket_disconnected_callback"]}
{"id": "C205", "title": "OCPP 1.6: the authorization key is stored as meant", "statement": "ChangeConfiguration of AuthorizationKey stores the key that a hexadecimal text denotes, stores other texts of at least 8 bytes as they are, and refuses shorter ones without a change. (Violated: the hexadecimal notation of a key with unprintable bytes is stored itself; texts that only begin like hexadecimal notation, or have an odd number of digits, are changed.)", "quantifier": "all texts, states and environments", "why_tests_cant": "All texts.", "anchors": ["lib/ocpp/v16/charge_point_configuration.cpp: setAuthorizationKey, isHexNotation, hexToString, set"]}
{"id": "C206", "title": "OCPP 1.6: values that are lists", "statement": "ConnectorEvseIds accepts exactly the lists of EVSE ids of 7 to 37 bytes with at most 1000 bytes in total; IgnoredProfilePurposesOffline exactly the lists of charging profile purposes. What is accepted is stored as given. (Violated: an empty ConnectorEvseIds, and lists that end with a comma, are accepted.)", "quantifier": "all texts, states and environments", "why_tests_cant": "All texts, lists of any length.", "anchors": ["lib/ocpp/v16/charge_point_configuration.cpp: validate_connector_evse_ids, setIgnoredProfilePurposesOffline, set", "lib/ocpp/common/utils.cpp: split_string"]}
{"id": "C207", "title": "Every future is settled", "statement": "At any time, the future of a message handed over since the last start is open while the message is queued or outstanding, and otherwise it has been fulfilled exactly once. (Violated: a message dropped because the queue is full leaves a future that is never fulfilled.)", "quantifier": "all histories of the queue: any messages, schedules, failures, crashes and restarts", "why_tests_cant": "All histories of unbounded length.", "anchors": ["include/ocpp/common/message_queue.hpp: push_call_async, check_queue_sizes, handle_call_result, handle_timeout_or_callerror"]}
{"id": "C208", "title": "Functions that wait for the CSMS return its answer or the fallback", "statement": "data_transfer, authorize requests, Get15118EVCertificate and the OCSP requests return the answer of the CSMS if a readable one has arrived, and otherwise the documented fallback, never an acceptance the CSMS did not give; they do not throw and do not wait for ever. (Violated: exceptions for destroyed futures and unreadable answers, CALLERRORs in answer to CALLRESULTs, an uninitialised status, an unlimited wait.)", "quantifier": "all outcomes of the request, all answers", "why_tests_cant": "All answers, including unreadable ones, and all outcomes of the queue.", "anchors": ["lib/ocpp/v2/functional_blocks/data_transfer.cpp: data_transfer_req", "lib/ocpp/v2/functional_blocks/authorization.cpp: authorize_req", "lib/ocpp/v2/functional_blocks/security.cpp: on_get_15118_ev_certificate_request", "include/ocpp/v2/charge_point.hpp: send_callback", "lib/ocpp/v16/charge_point_impl.cpp: data_transfer, data_transfer_pnc_get_15118_ev_certificate, data_transfer_pnc_get_certificate_status"]}
{"id": "C209", "title": "OCPP 1.6: the price returned with an authorization is for it", "statement": "With any number of concurrent authorizations, a tariff message returned with an authorization was sent by the CSMS in a SetUserPrice for exactly this token, and processed after the Authorize.req of this authorization was handed over.", "quantifier": "all schedules of any number of authorizations, messages of the CSMS and timeouts", "why_tests_cant": "All interleavings.", "anchors": ["lib/ocpp/v16/charge_point_impl.cpp: authorize_id_token, handle_set_user_price"]}
{"id": "C210", "title": "OCPP 1.6: no price is lost during an authorization", "statement": "If the CSMS accepted the token and its SetUserPrice is processed before the authorization returns, the authorization returns with the tariff message of the CSMS; nothing undefined happens. (Violated: by overlapping authorizations of one token, and by a price that arrives before the answer.)", "quantifier": "all schedules of any number of authorizations, messages of the CSMS and timeouts", "why_tests_cant": "All interleavings.", "anchors": ["lib/ocpp/v16/charge_point_impl.cpp: authorize_id_token, handle_set_user_price"]}
{"id": "C211", "title": "OCPP 1.6: an authorization does not keep messages of the CSMS from being processed", "statement": "While an authorization waits for the answer of the CSMS, messages of the CSMS, among them this answer, are processed. (Violated: a SetUserPrice that arrives during that time blocks the processing until the authorization has given up.)", "quantifier": "all schedules of any number of authorizations, messages of the CSMS and timeouts", "why_tests_cant": "All interleavings.", "anchors": ["lib/ocpp/v16/charge_point_impl.cpp: authorize_id_token, handle_set_user_price"]}
{"id": "C212", "title": "Certificates: the CSMS is told what was done", "statement": "For every InstallCertificate, DeleteCertificate and CertificateSigned (OCPP 1.6, 2.x, and through DataTransfer), the security module is asked at most once and then for exactly the certificate and type of the request; there is one reply, which is Accepted exactly if the module accepted; after an error reply nothing was changed.", "quantifier": "all requests, all types, all behaviours of the security module", "why_tests_cant": "All behaviours of the module for all certificates and types.", "anchors": ["lib/ocpp/v2/functional_blocks/security.cpp: handle_install_certificate_req, handle_delete_certificate_req, handle_certificate_signed_req", "lib/ocpp/v16/charge_point_impl.cpp: handleInstallCertificateRequest, handleDeleteCertificateRequest, handleCertificateSignedRequest, handle_data_transfer_pnc_certificate_signed, handle_data_transfer_install_certificate, handle_data_transfer_delete_certificate", "lib/ocpp/common/evse_security.cpp: conversions", "lib/ocpp/common/evse_security_impl.cpp: conversions"]}
{"id": "C213", "title": "GetInstalledCertificateIds lists what is installed", "statement": "The answer to GetInstalledCertificateIds lists exactly the certificates that the security module reports for the types of the request (all types if none is named), with type, hash and children, and is NotFound exactly if there are none. (Violated: a request that names OEMRootCertificate gets a CALLERROR; through DataTransfer of 1.6 a request without types finds nothing.)", "quantifier": "all requests, all lists of installed certificates", "why_tests_cant": "All lists of certificates of any length.", "anchors": ["lib/ocpp/v2/functional_blocks/security.cpp: handle_get_installed_certificate_ids_req", "lib/ocpp/v16/charge_point_impl.cpp: handleGetInstalledCertificateIdsRequest, handle_data_transfer_pnc_get_installed_certificates", "lib/ocpp/common/evse_security.cpp: conversions"]}
{"id": "C214", "title": "A new certificate of the station is used at once, a refused one reported", "statement": "After CertificateSigned the connection is made anew exactly if the certificate is the one of the station, was accepted and is in use (security profile 3), after the answer was given; a refused certificate is reported to the CSMS with a security event; OCSP data is renewed exactly for accepted V2G certificates.", "quantifier": "all requests, security profiles and behaviours of the security module", "why_tests_cant": "All combinations of request, profile and behaviour of the module.", "anchors": ["lib/ocpp/v2/functional_blocks/security.cpp: handle_certificate_signed_req", "lib/ocpp/v16/charge_point_impl.cpp: handleCertificateSignedRequest"]}
{"id": "C215", "title": "Security events are logged, and critical ones sent", "statement": "Every security event is put into the security log once; it is sent to the CSMS exactly if it is critical (as said by the application, otherwise by its name) and, in 1.6, notifications are not disabled; the application is told of events of libocpp itself. Every start is reported with one critical event that names its reason.", "quantifier": "all events, texts, times and settings", "why_tests_cant": "All texts and settings.", "anchors": ["lib/ocpp/v16/charge_point_impl.cpp: securityEventNotification, on_security_event, start", "lib/ocpp/v2/functional_blocks/security.cpp: security_event_notification_req", "lib/ocpp/v2/charge_point.cpp: on_security_event, start", "lib/ocpp/v16/utils.cpp: is_critical", "lib/ocpp/v2/utils.cpp: is_critical"]}
{"id": "C216", "title": "An unverifiable certificate of the CSMS is reported once", "statement": "In every history, a connection that fails because the certificate of the CSMS cannot be verified is reported as a security event exactly if this did not already happen since the last connection or the start; it is then also sent to the CSMS.", "quantifier": "all histories of connections, failures and settings", "why_tests_cant": "Histories of unbounded length.", "anchors": ["lib/ocpp/v16/charge_point_impl.cpp: init_websocket", "lib/ocpp/v2/charge_point.cpp: websocket_connection_failed, websocket_connected_callback"]}
{"id": "C217", "title": "Results of SetVariables are not mixed up", "statement": "The results of SetVariables are kept per component (name, instance, EVSE, connector) and variable (name, instance): for every component and variable of the request, in any order and number, there is exactly one result, that of the last item for it. (Violated for components whose instances differ in the case of letters only: the order of the keys is then not an order at all, and results of different components replace each other.)", "quantifier": "all requests with any number of items, all names, instances, EVSEs and connectors", "why_tests_cant": "All sets of names of any length; a map with a broken order fails only for certain combinations of keys.", "anchors": ["include/ocpp/v2/comparators.hpp: operator<, operator==", "lib/ocpp/v2/functional_blocks/provisioning.cpp: set_variables_internal", "include/ocpp/common/cistring.hpp: operator==, operator<"]}
{"id": "C218", "title": "Variables are found by their names", "statement": "A variable is found exactly if it is in the device model with this component and variable; names and instances are case-insensitive, as OCPP demands. (Violated: names are compared with their case.)", "quantifier": "all device models, all names and instances", "why_tests_cant": "All device models and names.", "anchors": ["include/ocpp/v2/comparators.hpp: operator<", "lib/ocpp/v2/device_model.cpp: request_value_internal, set_value"]}
{"id": "C219", "title": "Variables take effect when they are set", "statement": "After every history of SetVariables requests, settings by the application, registrations and connections, what the station uses is what the device model says: attempts, interval and timeout of the queue, the periods of heartbeats and of clock-aligned meter values, the options and the password of the connection; and no request fails with an exception. (Violated if a request names a variable twice: the first value is used, the last one stored.)", "quantifier": "all histories of requests, settings, registrations and connections, all device models", "why_tests_cant": "Histories of unbounded length with any values; the copies of a value in other modules must follow the device model in all of them.", "anchors": ["lib/ocpp/v2/functional_blocks/provisioning.cpp: handle_variable_changed, handle_variables_changed, set_variables, handle_boot_notification_response", "lib/ocpp/v2/connectivity_manager.cpp: set_websocket_authorization_key, set_websocket_connection_options_without_reconnect, get_ws_connection_options", "lib/ocpp/v2/functional_blocks/meter_values.cpp: update_aligned_data_interval", "include/ocpp/common/message_queue.hpp: update_transaction_message_attempts, update_transaction_message_retry_interval, update_message_timeout"]}
{"id": "C220", "title": "A change of options keeps the interface of the connection", "statement": "Setting options of the connection changes nothing else about it; in particular the station goes on using the network interface the application chose for the active network profile. (Violated: the interface chosen by the application is forgotten.)", "quantifier": "all states and variables", "why_tests_cant": "All combinations of options and states.", "anchors": ["lib/ocpp/v2/connectivity_manager.cpp: set_websocket_connection_options_without_reconnect, try_connect_websocket", "lib/ocpp/v2/functional_blocks/provisioning.cpp: handle_variable_changed"]}
{"id": "C221", "title": "Requests for composite schedules", "statement": "GetCompositeSchedule.req is accepted exactly if the EVSE (connector) exists and the station has the unit asked for, or any unit if none is asked for; otherwise it is rejected, in 2.x with the reason. The schedule in the answer begins now, covers the requested duration (in 1.6 at most MaxCompositeScheduleDuration), is in that unit, and its limit is at every instant the lowest one in force among the stored valid profiles. The functions for all EVSEs give the application the same schedules. (2.x: a name of an unknown unit in the list of units makes requests fail with an exception.)", "quantifier": "all stores of profiles reached by any history, all configurations, EVSEs, durations, units, instants", "why_tests_cant": "All profiles, instants and configurations; the limit is a function of time.", "anchors": ["lib/ocpp/v2/functional_blocks/smart_charging.cpp: get_composite_schedule_internal, get_composite_schedule, get_all_composite_schedules, calculate_composite_schedule", "lib/ocpp/v16/charge_point_impl.cpp: handleGetCompositeScheduleRequest, get_all_composite_charging_schedules"]}
{"id": "C222", "title": "Purposes ignored while offline", "statement": "While the station is offline, profiles with a purpose listed in IgnoredProfilePurposesOffline have no effect on any composite schedule, and all others do; while it is online all of them have effect. (1.6: violated for the enhanced schedules of the application: after the first accepted BootNotification nothing is ignored when the connection is lost, and before it the profiles are ignored although the station is online.)", "quantifier": "all stores of profiles, all lists of purposes, all histories of connections and registrations", "why_tests_cant": "Histories of connections of any length combined with all sets of profiles.", "anchors": ["lib/ocpp/v2/utils.cpp: get_purposes_to_ignore, get_charging_profile_purposes", "lib/ocpp/v2/functional_blocks/smart_charging.cpp: get_valid_profiles_for_evse", "lib/ocpp/v16/charge_point_impl.cpp: get_all_composite_charging_schedules, get_all_enhanced_composite_charging_schedules, connected_callback", "lib/ocpp/v16/smart_charging.cpp: CompositeScheduleConfig, get_valid_profiles"]}
{"id": "C223", "title": "Schedules of the application without transaction", "statement": "The composite schedule the application asks for is not affected by TxProfiles and TxDefaultProfiles as long as the EVSE has no transaction; with a transaction it is the one the CSMS would get. A duration too long for the message is cut to the longest possible one.", "quantifier": "all stores of profiles, EVSEs, durations, units, instants", "why_tests_cant": "All profiles and instants.", "anchors": ["lib/ocpp/v2/functional_blocks/smart_charging.cpp: get_composite_schedule"]}
{"id": "C224", "title": "Check of the device model at the start", "statement": "A 2.x charging station is created exactly if its device model is complete: it lists a supported version, every variable that is always required and every variable required by a controller that is available has a value, its EVSE and Connector components are exactly those of the station, and each of them is described (V2X variables for the EVSEs with V2X available). If required variables are missing, the error names exactly the missing ones.", "quantifier": "every device model, every map from EVSEs to numbers of connectors, every text of supported versions", "why_tests_cant": "Quantifies over all device models and structures; tests use a few configurations with single variables removed.", "anchors": ["lib/ocpp/v2/device_model.cpp: DeviceModel::check_integrity, check_required_variables, check_required_variable, check_variable_has_value", "lib/ocpp/v2/ctrlr_component_variables.cpp: required_variables, required_component_available_variables, required_evse_variables, required_connector_variables, required_v2x_variables", "lib/ocpp/v2/utils.cpp: get_ocpp_protocol_versions"]}
{"id": "C225", "title": "Required variables can always be read", "statement": "Once a charging station has started, no history of SetVariables requests and internal writes makes a read of a required variable fail for want of a value, including those of controllers that became available.", "quantifier": "every complete device model, every history of writes, every required variable", "why_tests_cant": "Needs all histories of writes; a read of a missing variable throws in whatever function happens to need it.", "anchors": ["include/ocpp/v2/device_model.hpp: DeviceModel::get_value, get_optional_value", "lib/ocpp/v2/device_model.cpp: DeviceModel::set_value, set_read_only_value, request_value_internal", "lib/ocpp/v2/functional_blocks/provisioning.cpp: handle_set_variables_req"]}
{"id": "C226", "title": "Values keep the type of their variable", "statement": "If the values of the device model are of the types of their variables at the start, they are after every history of writes; a read of a required integer variable never throws and gives the number the stored numeral stands for.", "quantifier": "every typed device model, every history of writes, every text", "why_tests_cant": "Needs all texts and histories; std::stoi throws on texts that are no numerals or too large.", "anchors": ["lib/ocpp/v2/device_model.cpp: DeviceModel::set_value, validate_value", "include/ocpp/v2/device_model.hpp: to_specific_type, DeviceModel::get_value"]}
{"id": "C227", "title": "AvailabilityState of a connector agrees with its status", "statement": "The variable AvailabilityState of a connector in the device model of a 2.x charging station always shows the status the CSMS was last told by a StatusNotification, which is the current status of the connector; no SetVariables request changes it.", "quantifier": "every device model that describes the station, every history of connector events, requests, losses of the connection and reconnections, every connector", "why_tests_cant": "Needs all histories: the value is written by the callback of the state manager, which is only called when the status differs from the one last reported.", "anchors": ["lib/ocpp/v2/charge_point.cpp: update_dm_availability_state, ChargePoint::initialize", "lib/ocpp/v2/component_state_manager.cpp: send_status_notification_single_connector_internal", "lib/ocpp/v2/device_model.cpp: DeviceModel::set_read_only_value"]}
{"id": "C228", "title": "AvailabilityState of EVSEs and of the station", "statement": "The variable AvailabilityState of an EVSE follows the status of its connectors, so that an EVSE in use is not shown as Available, and that of the charging station follows its operational status.", "quantifier": "every device model that describes the station, every history, every EVSE", "why_tests_cant": "Needs all histories of events of several connectors; tests look at one connector.", "anchors": ["lib/ocpp/v2/charge_point.cpp: update_dm_availability_state", "lib/ocpp/v2/ctrlr_component_variables.cpp: ChargingStationAvailabilityState, EvseComponentVariables::AvailabilityState"]}
{"id": "C229", "title": "Invalid stored charging profiles are removed at the start", "statement": "When a 2.x charging station with smart charging starts, every stored charging profile that would not be accepted beside the others is deleted; nothing is changed or added, and a profile that is acceptable beside all others is kept.", "quantifier": "every contents of the profile table, every configuration of EVSEs, phases and running transactions", "why_tests_cant": "Needs every table: the checks look at the other stored profiles while profiles are deleted one by one.", "anchors": ["lib/ocpp/v2/charge_point.cpp: clear_invalid_charging_profiles, ChargePoint::start", "lib/ocpp/v2/functional_blocks/smart_charging.cpp: conform_and_validate_profile", "lib/ocpp/v2/database_handler.cpp: get_all_charging_profiles_group_by_evse, delete_charging_profile"]}
{"id": "C230", "title": "Charging profiles survive a restart", "statement": "A charging profile the station accepted and stored is still stored after a restart with the same configuration, unless it belongs to a transaction that no longer runs.", "quantifier": "every history of SetChargingProfile, ClearChargingProfile, limits of external systems and transactions before the restart", "why_tests_cant": "Needs every history: the checks at the start are applied to the stored form of a profile, beside its own row.", "anchors": ["lib/ocpp/v2/charge_point.cpp: clear_invalid_charging_profiles", "lib/ocpp/v2/functional_blocks/smart_charging.cpp: conform_and_validate_profile, validate_profile_schedules, verify_no_conflicting_external_constraints_id"]}
{"id": "C231", "title": "Received messages are handled in order, one at a time", "statement": "The messages received over the websocket are given to the message callback in the order in which they were received, each at most once, and one after the other; while the connection stays up every one of them is.", "quantifier": "every interleaving of the client thread, the receiving threads and threads that start, close or restart the connection; every sequence of messages, losses and reconnections", "why_tests_cant": "Needs every schedule of the threads; tests run one.", "anchors": ["lib/ocpp/common/websocket/websocket_libwebsockets.cpp: thread_websocket_message_recv_loop, on_conn_message, safe_close_threads, start_connecting", "include/ocpp/common/safe_queue.hpp: SafeQueue"]}
{"id": "C232", "title": "No access to an empty queue of received messages", "statement": "Handing over received messages never takes an element from an empty queue, whenever the connection is lost, closed or started again.", "quantifier": "every interleaving of the receiving thread with losses of the connection", "why_tests_cant": "A race of two steps that only a particular schedule shows.", "anchors": ["lib/ocpp/common/websocket/websocket_libwebsockets.cpp: thread_websocket_message_recv_loop, clear_all_queues, on_conn_fail", "include/ocpp/common/safe_queue.hpp: SafeQueue::pop"]}
{"id": "C233", "title": "Deferred callbacks run once, in order, all of them", "statement": "The deferred callbacks (connected, disconnected, stopped, failed) are called in the order in which the events occurred, each exactly once, and all of those that occurred before the end of the thread are called before it ends.", "quantifier": "every interleaving of the threads that push callbacks, the thread that calls them and the destructor", "why_tests_cant": "Needs every schedule.", "anchors": ["lib/ocpp/common/websocket/websocket_libwebsockets.cpp: push_deferred_callback, thread_deferred_callback_queue", "include/ocpp/common/safe_queue.hpp: SafeQueue"]}
{"id": "C234", "title": "The destructor of the websocket returns", "statement": "When the websocket is destroyed, the thread of the deferred callbacks ends, so that the destructor returns.", "quantifier": "every interleaving of the destructor with the thread", "why_tests_cant": "A lost notification between two instructions; only a particular schedule shows it.", "anchors": ["lib/ocpp/common/websocket/websocket_libwebsockets.cpp: ~WebsocketLibwebsockets, thread_deferred_callback_queue", "include/ocpp/common/safe_queue.hpp: wait_on_queue_element_or_predicate, notify_waiting_thread"]}
{"id": "C235", "title": "OCPP 2.x: meter values during a transaction", "statement": "Whenever the sample interval has passed, a TransactionEvent(Updated) reports exactly the configured measurands of the last value measured; at every clock-aligned instant one reports the configured measurands with the means of the values since the last one and the context Sample.Clock (none with AlignedDataSendDuringIdle); always for the transaction that is running, never without one. TransactionEvent(Started) has the configured measurands of the reading at the start. (Violated if the application gives its values another context than Sample.Periodic or Sample.Clock: nothing is sent.)", "quantifier": "every history of measurements, changes of the configuration, transactions, timers and restarts; every configuration", "why_tests_cant": "The values depend on the whole history of measurements, timers and restarts.", "anchors": ["lib/ocpp/v2/evse.cpp: start_metering_timers, on_meter_value, close_transaction, open_transaction", "lib/ocpp/v2/charge_point.cpp: transaction_meter_value_callback", "lib/ocpp/v2/functional_blocks/transaction.cpp: on_transaction_started"]}
{"id": "C236", "title": "OCPP 2.x: the meter values at the end of a transaction", "statement": "TransactionEvent(Ended) reports exactly the configured measurands of the readings of that transaction: at its start, at every sample time, at every clock-aligned instant since its start (with the means since the last one), and at its end, in this order; also after restarts, and whatever other transactions there were; afterwards the readings are deleted. (Violated: the additional reading for an instant that passed before the start was reported can get the time of the next instant and displace its reading, or be from before the start; readings of transactions cut off by a restart are never deleted.)", "quantifier": "every history of measurements, changes of the configuration, transactions, timers and restarts", "why_tests_cant": "The values are collected over the whole transaction, across restarts.", "anchors": ["lib/ocpp/v2/evse.cpp: start_metering_timers, open_transaction, close_transaction, release_transaction, try_resume_transaction", "lib/ocpp/v2/functional_blocks/transaction.cpp: on_transaction_finished", "lib/ocpp/v2/database_handler.cpp: transaction_metervalues_insert, transaction_metervalues_get_all"]}
{"id": "C237", "title": "OCPP 2.x: sample times of a transaction", "statement": "While a transaction is running, exactly the samplings with a positive interval take place, a whole number of intervals after its start (or after midnight for clock-aligned ones), also after restarts; if a callback runs before the next instant, none is left out or served twice. Without transaction nothing is sampled.", "quantifier": "every history of transactions, timers and restarts; all times and intervals", "why_tests_cant": "Times are unbounded and callbacks can be late.", "anchors": ["lib/ocpp/v2/evse.cpp: start_metering_timers, close_transaction, try_resume_transaction", "include/ocpp/common/aligned_timer.hpp"]}
{"id": "C238", "title": "OCPP 2.x: a constructed station never calls a function the application did not give", "statement": "Once the constructor has accepted the functions of the application, nothing that happens afterwards - any message of the CSMS, any call of the application, any change of the connection - calls a missing or empty function or uses an optional part of the station that was not created.", "quantifier": "every set of given, empty and missing functions, every set of available features, every message and event, every later state of the device model", "why_tests_cant": "2^35 sets of functions and 2^7 sets of features; tests give all functions and make everything available.", "anchors": ["lib/ocpp/v2/charge_point_callbacks.cpp: all_callbacks_valid", "lib/ocpp/v2/charge_point.cpp: ChargePoint::ChargePoint, initialize, on_ev_charging_needs", "lib/ocpp/v2/functional_blocks/transaction.cpp: on_transaction_finished", "lib/ocpp/v2/functional_blocks/remote_transaction_control.cpp: handle_remote_start_transaction_request"]}
{"id": "C239", "title": "OCPP 2.x: features and their functions", "statement": "The construction is refused exactly if a function needed for an available feature is missing or an optional one is empty; requests for a feature are answered NotImplemented exactly if it was not available at the start; its functions are called only then, and every request that passes the checks reaches its function.", "quantifier": "every set of functions, every set of features, every request", "why_tests_cant": "As C238.", "anchors": ["lib/ocpp/v2/charge_point_callbacks.cpp: all_callbacks_valid", "lib/ocpp/v2/charge_point.cpp: initialize, handle_message", "lib/ocpp/v2/functional_blocks/tariff_and_cost.cpp: handle_cost_and_tariff, handle_costupdated_req"]}
{"id": "C240", "title": "OCPP 1.6: functions that were not registered", "statement": "Whichever functions the application registers, nothing throws for want of one, every request of the CSMS is answered exactly once and with set values, and what was accepted is passed on.", "quantifier": "every set of registered functions, every message and event", "why_tests_cant": "2^30 sets of functions; tests register what they need.", "anchors": ["lib/ocpp/v16/charge_point_impl.cpp: handleRemoteStartTransactionRequest, handleRemoteStopTransactionRequest, handleStartTransactionResponse, handleGetLogRequest, handleSignedUpdateFirmware, message_callback"]}
{"id": "C241", "title": "Only a trustworthy CSMS is connected to", "statement": "With a security profile that uses TLS, a connection is only made to a server whose whole certificate chain is verified against the roots installed for the CSMS and, if configured, those of the system, and whose name matches the host if it is to be verified (wildcards only if allowed). There is never a connection without TLS with such a profile. A server that meets this is accepted if everything the station needs is available.", "quantifier": "all options, answers of the certificate store and of the libraries, and servers", "why_tests_cant": "All combinations of options and failures, and chains of any length.", "anchors": ["lib/ocpp/common/websocket/websocket_libwebsockets.cpp: tls_init, verify_csms_cn, process_callback"]}
{"id": "C242", "title": "The certificate of the station with security profile 3", "statement": "With security profile 3 a connection is only made with the certificate, key and password that the store names for the station at that attempt; without them there is no connection. With profile 2 the station presents no certificate.", "quantifier": "all options, answers of the certificate store and of the libraries, and servers", "why_tests_cant": "All combinations.", "anchors": ["lib/ocpp/common/websocket/websocket_libwebsockets.cpp: initialize_connection_options, tls_init"]}
{"id": "C243", "title": "A refused certificate of the CSMS is reported", "statement": "The application is told InvalidCSMSCertificate exactly once for each attempt in which the certificates of the server are refused, and never otherwise.", "quantifier": "all options and servers", "why_tests_cant": "All chains and options.", "anchors": ["lib/ocpp/common/websocket/websocket_libwebsockets.cpp: process_callback, verify_csms_cn"]}
{"id": "C244", "title": "Attempts to connect leave nothing behind", "statement": "The number of TLS contexts that exist does not grow with the number of attempts to connect.", "quantifier": "all sequences of attempts", "why_tests_cant": "Unbounded sequences.", "anchors": ["lib/ocpp/common/websocket/websocket_libwebsockets.cpp: initialize_connection_options, ConnectionData"]}
{"id": "C245", "title": "The CSMS receives the TransactionEvents of a transaction in order", "statement": "Whenever a TransactionEvent request of a transaction is transmitted after another one of the same transaction, it has a larger sequence number or is the same request once more; and every TransactionEvent request on the wire is one that the station decided to send.", "quantifier": "All histories of a 2.x station: operations of the application and the CSMS, transmissions, failures, timeouts, errors, overflow of the queue, restarts and power cuts at every point; unique transaction ids and a database that takes the writes.", "why_tests_cant": "It joins the numbering of events, its storage, the queue, its retransmissions and its database over histories of any length with power cuts at any point.", "anchors": ["lib/ocpp/v2/functional_blocks/transaction.cpp: TransactionBlock::transaction_event_req", "lib/ocpp/v2/message_dispatcher.cpp: MessageDispatcher::dispatch_call", "lib/ocpp/v2/message_queue.cpp: is_transaction_message, is_transaction_update_message", "include/ocpp/common/message_queue.hpp: MessageQueue"]}
{"id": "C246", "title": "No TransactionEvent gets lost without a reason", "statement": "Every TransactionEvent that the station decided to send was answered by the CSMS, is still held by the queue, was given up after a timeout or a CALLERROR, or was dropped because the queue was full; only events of type Updated are dropped.", "quantifier": "All histories of a 2.x station with restarts between operations.", "why_tests_cant": "The fate of a message is decided by many later operations, of which there are infinitely many combinations.", "anchors": ["lib/ocpp/v2/functional_blocks/transaction.cpp: TransactionBlock::transaction_event_req", "lib/ocpp/v2/message_dispatcher.cpp: MessageDispatcher::dispatch_call", "lib/ocpp/v2/message_queue.cpp: is_transaction_message, is_transaction_update_message", "include/ocpp/common/message_queue.hpp: MessageQueue"]}
{"id": "C247", "title": "In the end the CSMS has every event of every transaction", "statement": "Once the queue holds no TransactionEvent, and unless one was given up or dropped, the events that the CSMS answered are all that the station decided to send; for each transaction they are numbered 0, 1, 2, ... without gap, and are one Started, then any number of Updated, then at most one Ended; those of a transaction that is still running do not include Ended.", "quantifier": "All histories of a 2.x station with restarts between operations, unique transaction ids and a database that takes the writes; all transactions.", "why_tests_cant": "It is a statement about what is left over after a whole history.", "anchors": ["lib/ocpp/v2/functional_blocks/transaction.cpp: TransactionBlock::transaction_event_req", "lib/ocpp/v2/message_dispatcher.cpp: MessageDispatcher::dispatch_call", "lib/ocpp/v2/message_queue.cpp: is_transaction_message, is_transaction_update_message", "include/ocpp/common/message_queue.hpp: MessageQueue"]}
{"id": "C248", "title": "The backlog is delivered", "statement": "When the station is connected, accepted and idle, the time of every queued message has come and a message wakes the worker, then with a working connection and a CSMS that answers every queued message is transmitted and answered, after as many rounds as there are messages, and the queue is empty.", "quantifier": "All reachable states of the queue, backlogs of any length and content (also left over from before a restart).", "why_tests_cant": "It is a termination statement for backlogs of any length from any reachable state.", "anchors": ["include/ocpp/common/message_queue.hpp: MessageQueue worker thread, handle_call_result, push_call"]}
{"id": "C249", "title": "In the end everything arrives", "statement": "After any history of a 2.x station in which no TransactionEvent was given up or dropped, once the station is connected, accepted and idle and the time of every queued message has come: if the connection then works and the CSMS answers, after finitely many transmissions the CSMS has answered every TransactionEvent that the station ever decided to send, for every transaction numbered without gap, from Started to Ended.", "quantifier": "All histories of operations, lost connections, failed transmissions, timeouts, errors and restarts.", "why_tests_cant": "Liveness over histories of any length.", "anchors": ["include/ocpp/common/message_queue.hpp: MessageQueue worker thread, handle_call_result, push_call", "lib/ocpp/v2/functional_blocks/transaction.cpp: TransactionBlock::transaction_event_req"]}
{"id": "C250", "title": "Public keys of the meters", "statement": "After any history of calls of set_powermeter_public_key and starts of a 1.6 station, GetConfiguration reports as MeterPublicKey[c] the key that was set last for connector c (before that the key of the configuration, and an unknown key if there never was one), read only; asked for all keys it reports all other keys and the key of every connector. The call answers true exactly for the connectors that exist, and then the key is kept.", "quantifier": "All numbers of connectors, configurations, keys, histories of calls and starts, all ways to write the number.", "why_tests_cant": "Histories are unbounded and every key, name and configuration is allowed.", "anchors": ["lib/ocpp/v16/charge_point_configuration.cpp: setMeterPublicKey, getPublicKeyKeyValue, getAllMeterPublicKeyKeyValues, parse_meter_public_key_index, get, get_all_key_value", "lib/ocpp/v16/charge_point_impl.cpp: set_powermeter_public_key, get_configuration_key, handleGetConfigurationRequest"]}
{"id": "C251", "title": "No deadlock", "statement": "Whatever the application, the CSMS, the timers and the threads of the library do at the same time, they do not wait for each other for ever: as long as a call has not returned, some thread can go on, and all calls return. (Violated: by callbacks that are called with a mutex held, and by closing the connection while a message is handled that makes it anew.)", "quantifier": "All numbers of threads, all sequences of critical sections of the library in each of them, all interleavings.", "why_tests_cant": "A deadlock needs particular schedules of several threads; the number of schedules, threads and calls is unbounded.", "anchors": ["lib/ocpp/v16/charge_point_impl.cpp: handleUnlockConnectorRequest, handleResetRequest, handleDataTransferRequest, stop_transaction, authorize_id_token, register_data_transfer_callback", "lib/ocpp/v16/charge_point_state_machine.cpp", "lib/ocpp/v16/transaction.cpp", "lib/ocpp/v16/smart_charging.cpp", "lib/ocpp/common/websocket/websocket_libwebsockets.cpp: close, reconnect, start_connecting, safe_close_threads", "include/ocpp/common/message_queue.hpp", "lib/ocpp/common/ocpp_logging.cpp", "lib/ocpp/v2/evse.cpp, connector.cpp, ocsp_updater.cpp, average_meter_values.cpp, functional_blocks/authorization.cpp"]}
{"id": "C252", "title": "An accepted ChangeConfiguration takes effect in the running OCPP 1.6 station", "statement": "After each history the running station does what its configuration reports: a registered station sends heartbeats and clock aligned meter values at the configured intervals, each transaction takes sampled meter values at the configured interval, the message queue uses the configured attempts and retry interval, the application knows the configured connection timeout, the next connection uses the configured key, and pings go out at the configured interval. A change of the configuration never ends the process. (Violated: by resumed transactions, by an answer to BootNotification that is not Accepted, and by the pings of the connection after a change.)", "quantifier": "All configurations the station starts with, all histories of changes (accepted or not), answers to BootNotification, transactions, connections, time and restarts.", "why_tests_cant": "The values in effect and the reported configuration are separate copies; that they agree depends on the whole history of changes, restarts and connections.", "anchors": ["lib/ocpp/v16/charge_point_impl.cpp: set_configuration_key_internal, update_heartbeat_interval, update_meter_values_sample_interval, update_clock_aligned_meter_values_interval, handleBootNotificationResponse, try_resume_transactions, set_time_offset_timer, init_websocket", "lib/ocpp/v16/transaction.cpp: change_meter_values_sample_intervals", "lib/ocpp/v16/charge_point_configuration.cpp: setHeartbeatInterval, setDisplayTimeOffset", "lib/ocpp/common/websocket/websocket_base.cpp: set_websocket_ping_interval"]}
{"id": "C253", "title": "The time offset of an OCPP 1.6 station changes at the configured time", "statement": "After an accepted change of NextTimeOffsetTransitionDateTime, TimeOffset keeps its value until that time, and from then on it is what TimeOffsetNextTransition says at that time, whether or not the station was restarted in between. (Violated: if the station is off at that time, and by a restart while CustomDisplayCostAndPrice is false.)", "quantifier": "All histories before and after the change, all dates, all restarts.", "why_tests_cant": "The effect comes an arbitrary time after its cause, with any history in between.", "anchors": ["lib/ocpp/v16/charge_point_impl.cpp: set_configuration_key_internal, update_heartbeat_interval, update_meter_values_sample_interval, update_clock_aligned_meter_values_interval, handleBootNotificationResponse, try_resume_transactions, set_time_offset_timer, init_websocket", "lib/ocpp/v16/transaction.cpp: change_meter_values_sample_intervals", "lib/ocpp/v16/charge_point_configuration.cpp: setHeartbeatInterval, setDisplayTimeOffset", "lib/ocpp/common/websocket/websocket_base.cpp: set_websocket_ping_interval"]}
{"id": "C254", "title": "Which messages are queued", "statement": "In every state that can be reached, a message of the application is queued exactly if the queue runs and the message concerns a transaction, is a BootNotification, the connection is there or being resumed, or everything is to be queued and its type is not excluded; and, if it goes through the dispatcher, the CSMS has accepted the station, it is a BootNotification, it was requested by the CSMS (in 2.x only if nobody waits for its answer), or nobody waits for its answer and it concerns a transaction or everything is to be queued.", "quantifier": "All configurations, histories of the queue in which no undefined behaviour has occurred, and messages.", "why_tests_cant": "The decision depends on the state of connection, registration and configuration after arbitrary histories.", "anchors": ["include/ocpp/common/message_queue.hpp: push_call, push_call_async", "lib/ocpp/v16/message_dispatcher.cpp, lib/ocpp/v2/message_dispatcher.cpp: dispatch_call, dispatch_call_async"]}
{"id": "C255", "title": "OCPP 2.x: a stopped station begins no OCSP update", "statement": "Once the application has stopped the station, no OCSP update begins until the station is started again, whatever time passes and whatever is triggered; an update that is under way at the stop goes on, and the updater ends with it: at the latest answer, failure or timeout of its last request.", "quantifier": "all histories of starts, stops, triggers, answers, failures and timeouts before the stop, and all histories without a start after it", "why_tests_cant": "Interleavings of the updater's thread, the reading thread and the application over unbounded time.", "anchors": ["lib/ocpp/v2/ocsp_updater.cpp: OcspUpdater::stop, updater_thread_loop"]}
{"id": "C256", "title": "The message types named in MessageTypesDiscardForQueueing are not queued without a connection", "statement": "If all messages are to be queued (QueueAllMessages), then without a connection a message that neither concerns a transaction nor is a BootNotification is queued exactly if the setting MessageTypesDiscardForQueueing does not name its type. Names in the list that are no message types do not change what the other names mean.", "quantifier": "all values of the setting, all types of messages of OCPP 1.6 and 2.x, all histories of the queue with restarts and power cuts", "why_tests_cant": "The list is any text, and the queue is in any reachable state; a misspelled name or a blank in the list has an effect on the names after it only.", "anchors": ["lib/ocpp/v16/charge_point_impl.cpp: ChargePointImpl::create_message_queue", "lib/ocpp/v2/charge_point.cpp: ChargePoint::initialize", "include/ocpp/common/message_queue.hpp: MessageQueueConfig::check_queue, push_call"]}
{"id": "C257", "title": "OCPP 1.6: the feature profiles in the configuration are those the station offers", "statement": "A station can be made with a value of SupportedFeatureProfiles exactly if every text between its commas is the name of a feature profile and one of them is Core. A request of the standard is then refused, in every state, if it belongs to no profile of the list, is none of the security whitepaper, and is not GetLocalListVersion, SendLocalList or ReserveNow; otherwise it is handled: it is answered with a CALLRESULT once the station is accepted, or while its registration is pending, if nothing fails. An UnlockConnector has to name a connector of the station for that.", "quantifier": "all values of the setting, with and without the sections of the configuration for PnC, prices and custom keys, all states of the station, all requests of the standard with all contents and ids", "why_tests_cant": "The setting is any text and the request any message; tests use a few lists of profiles.", "anchors": ["lib/ocpp/v16/charge_point_configuration.cpp: ChargePointConfiguration::ChargePointConfiguration", "lib/ocpp/v16/charge_point_impl.cpp: ChargePointImpl::message_callback", "lib/ocpp/v16/types.cpp: string_to_supported_feature_profiles"]}
{"id": "C258", "title": "The logs that are written are those the setting names", "statement": "Every message of the station and of the CSMS is written exactly once to each log that LogMessagesFormat names (text, HTML, console with types or with contents, callback of the user) and to no other; raw messages go to the raw files of these logs if LogMessagesRaw is set; security events go to their file exactly if it is named; and a file is opened exactly if something is written to it. Nothing is written if logging is switched off.", "quantifier": "all values of the settings, for OCPP 1.6 and 2.x", "why_tests_cant": "The setting is any text or list of texts; tests use a few values.", "anchors": ["lib/ocpp/v2/charge_point.cpp: ChargePoint::configure_message_logging_format", "lib/ocpp/v16/charge_point_impl.cpp: ChargePointImpl::ChargePointImpl", "lib/ocpp/common/ocpp_logging.cpp: MessageLogging::initialize, MessageLogging::log_output"]}
{"id": "C259", "title": "Stopping the message queue", "statement": "When the message queue is stopped, the call returns, whatever the worker is doing and whatever other threads do; after its beginning at most one message is sent, and after its return none. A station that is started again after a stop sends messages again.", "quantifier": "all interleavings of the worker, the thread that stops the queue and other threads that change the queue or notify the worker, of any length", "why_tests_cant": "The outcome depends on the interleaving of threads at single instructions.", "anchors": ["include/ocpp/common/message_queue.hpp: MessageQueue::start, MessageQueue::stop", "lib/ocpp/v2/charge_point.cpp: ChargePoint::start, ChargePoint::stop"]}
{"id": "C260", "title": "OCPP 2.x: what the CSMS has erased is gone", "statement": "After the CSMS has had the data of a customer's token erased (CustomerInformation with clear) or the cache cleared, the station tells nothing about the token, in whatever spelling, and does not accept it from the cache, until the CSMS has stated something about it again; the entries of other tokens and the local list are unchanged.", "quantifier": "all histories before and after the erasure: authorizations with all outcomes, transaction events, cleanups, updates of the list; all tokens, configurations and states of the connection", "why_tests_cant": "Histories of unbounded length before and after; any spelling of the token.", "anchors": ["lib/ocpp/v2/functional_blocks/diagnostics.cpp: Diagnostics::clear_customer_information, Diagnostics::get_customer_information", "lib/ocpp/v2/functional_blocks/authorization.cpp: Authorization::validate_token"]}
{"id": "C261", "title": "OCPP 2.x: no request to clean the authorization cache is lost", "statement": "After every request to clean the authorization cache a round of the cleaning begins that sees everything stored before the request, whatever the cleaning thread was doing; and stopping the thread always succeeds: the call returns, and then the thread has ended.", "quantifier": "all interleavings of the cleaning thread, any number of threads that ask for a cleaning, time and the call that stops the thread, of any length", "why_tests_cant": "Lost wake-ups depend on the interleaving of threads at single instructions.", "anchors": ["lib/ocpp/v2/functional_blocks/authorization.cpp: Authorization::cache_cleanup_handler, Authorization::trigger_authorization_cache_cleanup, Authorization::stop_auth_cache_cleanup_thread"]}
{"id": "C262", "title": "OCPP 1.6: which measurands can be configured", "statement": "ChangeConfiguration of MeterValuesSampledData, MeterValuesAlignedData, StopTxnSampledData or StopTxnAlignedData is accepted exactly for lists of the names of supported measurands (or the empty text), without an exception for any text, and a refused one changes nothing. Once accepted, the total and every phase of each listed measurand, and nothing else, are asked for, each of them once. The charge point starts exactly if SupportedMeasurands and the four keys are such lists, and after any sequence of such changes it starts again.", "quantifier": "every text for each key, every text of SupportedMeasurands, every sequence of changes", "why_tests_cant": "The texts are unbounded and whether the charge point starts again depends on everything the CSMS has written.", "anchors": ["lib/ocpp/v16/charge_point_configuration.cpp: init_supported_measurands, csv_to_measurand_with_phase_vector, validate_measurands, measurands_supported, setMeterValuesSampledData, setMeterValuesAlignedData, setStopTxnSampledData, setStopTxnAlignedData", "lib/ocpp/v16/ocpp_enums.cpp: string_to_measurand"]}
