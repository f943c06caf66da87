# Formal model of EVerest/libocpp

Everything here is a model in Lean 4 of the code in `/repo`, written by reading it; the code is not
built or run. Model definitions carry a comment with the file and lines they model and say where
they simplify.

## Layout

* `lean/Verif/<Area>/Model.lean` executable model, function by function
* `lean/Verif/<Area>/Spec.lean` (where needed) small vocabulary used only to state the properties
* `lean/Verif/<Area>/Lemmas*.lean` and files named after a topic: helper lemmas
* `lean/Verif/<Area>/Theorems*.lean` the property theorems, with non-vacuity examples beside them

Names: a theorem is named after its property (`C29_gap_free`). `_partial` marks a theorem with
hypotheses the full property does not have; `_violated` marks the proof that the full property is
false of the code, by a concrete reachable history. `MANIFEST.json` lists the theorems of each
property, `properties.jsonl` the properties, `seeded/LOG.jsonl` the wrong programs tried.

## Trusted base

* Lean 4.33.0 kernel. Axioms used: only `propext`, `Classical.choice`, `Quot.sound` (checked with
  `#print axioms`; `vcheck` replays all modules). No own axioms, `sorry`, `native_decide`,
  `bv_decide`. `decide` and `decide +kernel` are evaluated by the kernel; they are used for concrete
  witnesses and for whole finite tables only.
* Mathlib modules imported: `Mathlib.Algebra.Order.Ring.Rat`, `Mathlib.Algebra.Order.Field.Basic`,
  `Mathlib.Tactic.Linarith`, `Mathlib.Tactic.Positivity`, `Mathlib.Tactic.Tauto`, `Mathlib.Tactic.Ring`, `Mathlib.Tactic.NormNum`, `Mathlib.Algebra.Order.Ring.Int`, `Mathlib.Data.List.Nodup`, `Mathlib.Data.List.Flatten` (composite
  schedules and their lemmas), `Mathlib.Algebra.Order.Floor.Defs`, `Mathlib.Data.Rat.Floor` (texts of
  numbers in the device model). All other areas use the core library only.
* The reading of the C++ in the model's comments.
* Behaviour of libraries, as stated in the model: `std::deque/map/promise`, sqlite (an INSERT or DELETE
  is atomic and durable when it returns; a full table scan returns rows in insertion order), UUIDs from
  `create_message_id` never collide, mutexes exclude each other.
* Simplifications common to all areas: logging is dropped, JSON (de)serialisation and schema
  validation are not modelled, floating point numbers are modelled as rationals or integers, times as
  integers. Where operations run under one lock, or in one thread, they are atomic in the model; the
  message queue is modelled at the level of its critical sections, with races between them.

## What is modelled

| Area (`lean/Verif/...`) | Code | Properties |
|---|---|---|
| `MessageQueue` | `include/ocpp/common/message_queue.hpp` (whole class), the dispatchers of `common/message_dispatcher`, `common/ocpp_logging` left out; `lib/ocpp/common/database`: message queue tables | C01-C14, C254, C256, C259 |
| `SmartCharging` | `lib/ocpp/v16/profile.cpp`, the composite part of `lib/ocpp/v16/smart_charging.cpp`; `lib/ocpp/v2/profile.cpp`, the composite part of `lib/ocpp/v2/functional_blocks/smart_charging.cpp` | C15-C19, C50-C53 |
| `ProfileStore` | validation, storage, ClearChargingProfile, GetChargingProfiles of `lib/ocpp/v2/functional_blocks/smart_charging.cpp` and the table of `database_handler.cpp` | C20-C23, C54-C56 |
| `Auth` | `lib/ocpp/v2/functional_blocks/authorization.cpp`, the cache and local list tables | C24-C28, C57-C60, C260, C261 |
| `Tx` | `lib/ocpp/v2/functional_blocks/transaction.cpp`, `evse.cpp`, `transaction.cpp`, `reset` in `provisioning.cpp`, the transaction table, remote start ids | C29, C30, C61-C63 |
| `Avail` | `lib/ocpp/v2/component_state_manager.cpp`, `connector.cpp`, `functional_blocks/availability.cpp`, the availability part of `firmware_update.cpp` | C31-C33, C64, C65 |
| `Conn16` | `lib/ocpp/v16/charge_point_state_machine.cpp`; sessions, transactions, availability, firmware, remote start and status reports of `lib/ocpp/v16/charge_point_impl.cpp` | C34, C66-C71 |
| `DeviceModel (variables)` | `lib/ocpp/v2/device_model.cpp` (validation, reading, writing, reports), SetVariables/GetVariables/GetReport/GetBaseReport in `functional_blocks/provisioning.cpp`, text predicates in `common/utils.cpp` | C36, C37, C72-C76 |
| `Reports` | `lib/ocpp/v2/notify_report_requests_splitter.cpp`; `notify_report_req` in `functional_blocks/provisioning.cpp`; `notify_monitoring_report_req`, `notify_customer_information_req`, `handle_customer_information_req` in `functional_blocks/diagnostics.cpp` | C38-C40 |
| `Monitor` | `set_monitors`, `clear_monitors`, `get_monitors`, `validate_monitor` of `lib/ocpp/v2/device_model.cpp`, the tables of monitors of `device_model_storage_sqlite.cpp`; `lib/ocpp/v2/monitoring_updater.cpp` | C77-C86, C91-C93 |
| `Connect` | `lib/ocpp/v2/connectivity_manager.cpp`; `handle_set_network_profile_req` and the check of NetworkConfigurationPriority in `functional_blocks/provisioning.cpp`; the callbacks of the websocket in `charge_point.cpp` | C41, C42, C87-C90, C94 |
| `Security` | SignCertificate, CertificateSigned and InstallCertificate of `lib/ocpp/v2/functional_blocks/security.cpp` | C43, C95 |
| `Remote` | `lib/ocpp/v2/functional_blocks/remote_transaction_control.cpp` (start, stop, unlock, trigger), `reservation.cpp` (ReserveNow, CancelReservation), the check of the registration status in `message_callback` of `charge_point.cpp` | C35, C96-C100 |
| `Strings` | `include/ocpp/common/string.hpp`, `cistring.hpp` | C44, C45 |
| `Meter` | `include/ocpp/common/aligned_timer.hpp`; `lib/ocpp/v2/average_meter_values.cpp`; the filters of `lib/ocpp/v2/utils.cpp`; the clock-aligned values of `functional_blocks/meter_values.cpp`; the triggers of `lib/ocpp/v2/evse.cpp`; `transaction_metervalues_*` of `lib/ocpp/v2/database_handler.cpp`; `lib/ocpp/v16/utils.cpp` | C46-C48, C101-C105 |
| `Wire` | the conversions of all enumerations and structs: `lib/ocpp/v2/ocpp_enums.cpp`, `ocpp_types.cpp`, `types.cpp`, `messages/*.cpp`, the same of `lib/ocpp/v16`, and of `lib/ocpp/common/types.cpp` those with both directions; `DateTimeImpl::to_rfc3339`, `from_rfc3339`. The conversions of the JSON library and the formats of the date library are modelled from their documentation | C49, C106-C108 |
| `Auth16` | `authorize_id_token`, `validate_against_cache_entries`, `data_transfer_pnc_authorize`, ClearCache, SendLocalList, GetLocalListVersion and the idTagInfo of transaction responses in `lib/ocpp/v16/charge_point_impl.cpp`; AUTH_CACHE, AUTH_LIST, AUTH_LIST_VERSION in `lib/ocpp/v16/database_handler.cpp` | C109-C113 |
| `Tx16` | `lib/ocpp/v16/transaction.cpp`; the transactions of `lib/ocpp/v16/charge_point_impl.cpp` (start, stop, answers, resumption, remote stop, retry callback) and `lib/ocpp/v16/database_handler.cpp` | C114-C119 |
| `Prof16` | the store of `lib/ocpp/v16/smart_charging.cpp` (validation, installation, clearing, expiry, profiles in effect); SetChargingProfile, ClearChargingProfile, RemoteStartTransaction with profile and `load_charging_profiles` in `lib/ocpp/v16/charge_point_impl.cpp`; CHARGING_PROFILES in `lib/ocpp/v16/database_handler.cpp` | C120-C125 |
| `Boot` | BootNotification, its answers and repetitions, heartbeats, `stop`/`restart`, `connected_callback` and the filter of `message_callback` in `lib/ocpp/v16/charge_point_impl.cpp`, `lib/ocpp/v2/charge_point.cpp` and `lib/ocpp/v2/functional_blocks/provisioning.cpp` | C126-C129 |
| `Conf16` | `lib/ocpp/v16/charge_point_configuration.cpp` (`get`, `set`, the setters they call, the file with the changes, validation at the start); `set_configuration_key_internal`, `get_configuration_key`, the switch of the security profile in `lib/ocpp/v16/charge_point_impl.cpp` | C130-C137, C177, C178 |
| `Recv` | `receive` of `include/ocpp/common/message_queue.hpp`; `message_callback`, `handle_message` and, as skeletons (answers, exceptions, calls of the application), all handlers of requests in `lib/ocpp/v16/charge_point_impl.cpp`, `lib/ocpp/v2/charge_point.cpp`, `lib/ocpp/v2/functional_blocks/*.cpp`, `lib/ocpp/v21/functional_blocks/bidirectional.cpp`; the feature profiles in `lib/ocpp/v16/charge_point_configuration.cpp` | C138-C141, C257 |
| `InitDb` | `lib/ocpp/v2/init_device_model_db.cpp` (merging and checking the component configurations, reading the database, insertion, update and removal of components, variables, attributes and monitors), the schema in `config/v2/device_model_migrations`, and the reading and writing of values and monitors in `lib/ocpp/v2/device_model_storage_sqlite.cpp`; SQL statements that fail and the migration of the schema are not modelled | C142-C147 |
| `Sock` | `lib/ocpp/common/websocket/*.cpp` (address, Basic authentication, connection loop and waiting times, pings, sending and receiving; not TLS and certificates), `3rd_party/websocketpp_utils`, and when the OCPP 1.6 charge point connects and disconnects (`lib/ocpp/v16/charge_point_impl.cpp`) | C148-C162 |
| `Met16` | `get_latest_meter_value`, `send_meter_value`, `get_filtered_transaction_data`, `get_signed_meter_value` and the meter values of transactions in `lib/ocpp/v16/charge_point_impl.cpp`; `csv_to_measurand_with_phase_vector` in `lib/ocpp/v16/charge_point_configuration.cpp`; `lib/ocpp/v16/transaction.cpp` (meter values) | C163, C164, C262 |
| `Price` | `handle_set_session_cost`, `handle_set_user_price` (which session), `send_meter_value_on_pricing_trigger`, `set_connector_trigger_metervalue_timer`, `reset_pricing_triggers` and the status callback in `lib/ocpp/v16/charge_point_impl.cpp`; `handle_costupdated_req` in `lib/ocpp/v2/functional_blocks/tariff_and_cost.cpp`; the pricing triggers in `lib/ocpp/v2/evse.cpp`; the contents of the cost messages (prices, texts) are not modelled | C165-C170 |
| `Trig16` | `handleTriggerMessageRequest`, `handleExtendedTriggerMessageRequest` and the statuses of uploads and firmware updates in `lib/ocpp/v16/charge_point_impl.cpp`; the conversions of firmware statuses in `lib/ocpp/common/types.cpp` | C171, C172 |
| `Req16` | `handleResetRequest`, `handleDataTransferRequest`, `handleUnlockConnectorRequest`, `handleReserveNowRequest`, `handleCancelReservationRequest` in `lib/ocpp/v16/charge_point_impl.cpp` | C173-C176 |
| `Message logs` | `lib/ocpp/common/ocpp_logging.cpp` | C179–C186, C258 |
| `Fw2` | `lib/ocpp/v2/functional_blocks/firmware_update.cpp`: statuses, answers, security events (the connectors themselves: Avail) | C187-C191 |
| `Display messages` | `lib/ocpp/v2/functional_blocks/display_message.cpp`, `split_string` and `trim_string` in `lib/ocpp/common/utils.cpp` | C192, C193 |
| `OCSP updates` | `lib/ocpp/v2/ocsp_updater.cpp` and its uses in `provisioning.cpp`, `security.cpp` | C194–C197, C255 |
| `Certificate timers (1.6)` | Timers for certificates and OCSP in `lib/ocpp/v16/charge_point_impl.cpp` | C198, C199 |
| `Costs and tariffs (2.x)` | `lib/ocpp/v2/functional_blocks/tariff_and_cost.cpp`, RunningCost in `lib/ocpp/common/types.cpp` | C200–C202 |
| `Certificate timers (2.x), reconnection` | Certificate checks in `lib/ocpp/v2/functional_blocks/security.cpp`; connection callbacks in `lib/ocpp/v2/charge_point.cpp` | C203, C204 |
| `Authorization key and lists (1.6)` | `setAuthorizationKey`, `validate_connector_evse_ids`, `setIgnoredProfilePurposesOffline` in `lib/ocpp/v16/charge_point_configuration.cpp` | C205, C206 |
| `Futures of requests` | `include/ocpp/common/message_queue.hpp` | C207 |
| `Functions that wait for the CSMS` | `data_transfer_req`, `authorize_req`, `on_get_15118_ev_certificate_request`, `send_callback` (2.x); `data_transfer`, `data_transfer_pnc_get_15118_ev_certificate`, `data_transfer_pnc_get_certificate_status` (1.6) | C208 |
| `User price during an authorization (1.6)` | `authorize_id_token`, `handle_set_user_price` in `lib/ocpp/v16/charge_point_impl.cpp` as concurrent threads | C209-C211 |
| `Certificate requests` | `handle_install_certificate_req`, `handle_delete_certificate_req`, `handle_certificate_signed_req`, `handle_get_installed_certificate_ids_req` (2.x), their counterparts of 1.6 and of DataTransfer, the conversions in `lib/ocpp/common/evse_security.cpp` and `evse_security_impl.cpp` | C212-C214 |
| `Security events` | `securityEventNotification`, `security_event_notification_req`, `is_critical`, the callbacks for failed connections, the events of the start | C215, C216 |
| `Names as keys` | `include/ocpp/v2/comparators.hpp`, the map of results in `set_variables_internal`, the look-up in `device_model_map` | C217, C218 |
| `Effects of variables` | `handle_variable_changed`, `handle_variables_changed`, `handle_boot_notification_response` (timers), `set_websocket_authorization_key`, `set_websocket_connection_options_without_reconnect`, `update_aligned_data_interval` (period), the settings of the queue | C219, C220 |
| `Requests for composite schedules` | 2.x: `get_composite_schedule_internal`, both `get_composite_schedule`, `get_all_composite_schedules`, `CompositeScheduleConfig`, `get_purposes_to_ignore`; 1.6: `handleGetCompositeScheduleRequest`, `get_all_(enhanced_)composite_charging_schedules`, `connected_callback` (state of the connection) | C221-C223 |
| `Check of the device model at the start` | `DeviceModel::check_integrity`, `check_required_variables`, the tables of required variables, `get_ocpp_protocol_versions`, `get_value`, `get_optional_value` | C224–C226 |
| `AvailabilityState in the device model` | `ChargePoint::update_dm_availability_state` and the callback of the `ComponentStateManager`, on top of the models of availability and device model | C227, C228 |
| `Charging profiles at the start (2.x)` | `clear_invalid_charging_profiles` on top of the model of the profile store | C229, C230 |
| `Threads of the websocket` | `thread_websocket_message_recv_loop`, `safe_close_threads`, `push_deferred_callback`, `thread_deferred_callback_queue`, destructor, `SafeQueue` | C231–C234 |
| `Meter values of transactions (2.x)` | `start_metering_timers` and its callbacks, `open_transaction`, `close_transaction`, `release_transaction`, `try_resume_transaction` (metering), `transaction_meter_value_callback` | C235–C237 |
| `Functions of the application, optional parts` | `all_callbacks_valid`, `initialize`, `handle_message` (optional parts), every call of a function of the application (2.x and 1.6) | C238–C240 |
| `Trust in the CSMS (`Verif/Sock/Trust`)` | `websocket_libwebsockets.cpp` (`tls_init`, `initialize_connection_options`, `verify_csms_cn`, verification callback, ownership of the TLS context) | C241–C244 |
| `Transactions and queue together (2.x)` | `transaction.cpp` `transaction_event_req`, `message_dispatcher.cpp`, `message_queue.cpp`: composition of the models Tx and MessageQueue | C245–C247 |
| `Delivery of the backlog` | `message_queue.hpp` worker thread and answers (model MessageQueue), composition with Tx | C248, C249 |
| `Public keys of the meters (1.6)` | `v16/charge_point_configuration.cpp` MeterPublicKey part, `v16/charge_point_impl.cpp` `get_configuration_key`, `set_powermeter_public_key` | C250 |
| `Mutexes` | all mutexes of `lib/ocpp` and `include/ocpp`, with the critical sections and what is entered in them; the ends of threads that are waited for | C251 |
| `Effects of the 1.6 configuration` | `lib/ocpp/v16/charge_point_impl.cpp` (what follows ChangeConfiguration and BootNotification, timers), `lib/ocpp/v16/transaction.cpp` (sample intervals) | C252, C253 |

Not modelled: the websocket layer and TLS, JSON schemas and (de)serialisation, the SQL text itself (its
effect is), the thread pools, OCSP updates, the EVSE security interface, logging, the PnC data transfer
payloads, tariff and cost, the device model configuration files and the migration of databases.

## Per property plan

| Property | Model | Proof |
|---|---|---|
| C01 order of transaction messages | whole `MessageQueue` class as a transition system incl. database tables and crash | invariant by induction over operations |
| C02 single outstanding call | same | invariant relating wire log and outstanding call |
| C03 crash survival | same, every database write is a separate effect, crash after any prefix | invariant `table = outstanding ++ queue`; lemma on prefixes |
| C04 transmissions bounded | same, ghost wire log | counting invariant |
| C05 given up only after N transmissions | same | negation by witness history; partial: histories without failed sends |
| C06 overflow | same functions | induction on queues |
| C07 promises at most once | same, ghost promise log | negation by witness; partial: front is always sendable |
| C08 silence before Accepted | queue + both dispatchers | invariant |
| C09 correlation | same | per-step |
| C10 reply first | same | negation by witness; partial |
| C11 no null dereference | same, undefined behaviour is an explicit state | negation by witness; partial for atomic schedules |
| C12 no lost wake-up | same | negation by witness; partial |
| C13 delayed resume | same | invariant on counters |
| C14 transaction id substitution | same | per-step |
| C15-C18, C50 composite schedule 1.6 | `profile.cpp` functions over integers | induction on the time-walking loops, pointwise specification |
| C17, C19, C51-C53 composite schedule 2.x | same for v2, values as rationals | same |
| C20-C23, C54-C56 profile store 2.x | validation functions + store | invariant over request histories; C22 negation |
| C24, C25, C28, C57-C60 authorization | `validate_token` as decision procedure over list, cache, config, CSMS answers | case analysis; C25 and C28 negations |
| C26, C27 local list | list + version tables, separate writes | refinement to a finite map; C27 negation |
| C29, C61-C63 transactions | transaction + database row + crash | invariants over histories with power cuts |
| C30 reset | request handlers + EVSE states | invariants, negations |
| C31, C64, C65 availability and firmware | request handlers + EVSE states | invariants, negations |
| C32, C33 component states | `component_state_manager.cpp` | invariant `cached = computed` over histories |
| C34, C66, C67, C71 state machine 1.6 | FSM table, error map, status timers | invariant, simulation without errors |
| C68-C70 availability, remote start and firmware 1.6 | request handlers + connectors | case analysis, invariants, negations |
| C35 remote start | `start`, with `PS.add` of the profile store | case analysis over EVSE, profile and answer; negations |
| C38 monitoring reports | `diagnostics.cpp` | case analysis, negations |
| C39, C40 splitting | loops | induction |
| C41, C42 connectivity | slot bookkeeping | invariant, modular arithmetic |
| C43 CSR | request/response/timer machine | invariant |
| C44, C45 strings | template class operations | case analysis, negation |
| C46 timers | arithmetic | `omega`/Int lemmas |
| C47, C48 meter values | loops / table rows | induction, negation |
| C49 enums | tables extracted from the conversion functions | `decide` over whole tables |
| C36 | `validateValue`, `setValue` over device models as lists of variables; text predicates as functions on lists of characters | characterisation of each text predicate by an independent description of the texts it accepts; then an equivalence; negations by witnesses |
| C37 | `getOne`, `baseReport`, `customReport` | case analysis; negations by witnesses |
| C72 | `setValue`, `requestValue` | frame lemmas of the update of one attribute |
| C73 | `setVariables` with its map of results | induction over the items; negation by a witness |
| C74 | `handleGetVariables` | specification of one read, pointwise |
| C75 | `baseReport` | membership in filtered lists |
| C76 | `handleGetReport`, `customReport` with the uninitialised status as a parameter | equivalence of the matching with an independent description; negation by a witness |
| C77 | `Store` with the monitors in memory and in the database; `setOne`, `clearOne`, `restart` | invariant by induction over the operations; negation by a witness |
| C78 | as C77 | invariant by induction; negation by a witness |
| C79 | `setMonitors`, `setOne` | case analysis against the specification; induction over items |
| C80 | `validMonitor`, text of a float | correctness of the text conversion; negation for all integers |
| C81 | `getMonitors` | membership in the report |
| C82 | `iterate`: one turn of the loop with its iterator | the number of turns; negation by an invariant that the iterator never passes |
| C83 | `evaluate`, `process` | invariant relating the entry, the last event sent and the alert, by induction over histories; negations by witnesses |
| C84 | as C83 | frame lemmas; negations by witness and for all evaluations |
| C85 | `due`, `alignedPoint` | arithmetic; induction over the times of processing |
| C86 | `process` | counting invariant by induction over histories |
| C87 | `confirm`, `check` | the active slot is tracked from the attempt on; negation by a run of the station |
| C88 | all operations, with exceptions as an outcome | invariant over histories; negation by a run |
| C89 | `step` | invariant on the timer, by induction over histories; negation by a run |
| C90 | `setNetworkProfile`, `validPriority` | equivalences, induction over the list |
| C91 | `process`, `shouldProcess` | invariant on the map of the updater, by induction over histories and entries |
| C92 | `updatePeriodics`, `clearOne` | frame lemmas; negation by a run |
| C93 | `onUpdated` | frame lemmas; negation for every sequence of runs |
| C94 | `step` | case analysis over all operations |
| C95 | `install`, `mayInstall` | case analysis |
| C96 | `stop`, `findTx` | induction over the EVSEs |
| C97 | `unlock` | case analysis; negation |
| C98 | `trigger`, `decideTrigger`, `messages` | case analysis, membership lemmas; negation with `Sec.trigger` |
| C99 | `reserveNow`, `cancelReservation` | case analysis |
| C100 | `gate` | case analysis over all message types and statuses; negation |
| C44 | `Str` constructors and assignment | for all byte strings; negations |
| C45 | `eq`, `ne`, `lt` | for all strings; negations |
| C46 | `next`, `firings`, `alignTimestamp` | integer arithmetic, induction over the callbacks; negations |
| C47 | `pass`, `dropLoop`, `stopTransaction` | induction over the passes, any size function; negation |
| C48 | `Db`, `insert`, `getAll`, `clear` with the bindings of the statement | invariant over all histories against the list of values kept; four negations |
| C101 | `ended`, `apply` | equivalence with the specified part |
| C102 | `Avg`, its calls | invariant over all histories against the mean; negation |
| C103 | `alignedRequests`, `alignedAfter` | equivalence for all stations |
| C104 | `energyTrigger`, `powerTrigger` | induction over the meter values; negations |
| C105 | `checkMax` | induction over the readings; negation |
| C49 | tables of all enumerations: declared values, cases of the switch, comparisons (generated from the sources) | a check of the tables implies the statement for all texts; the check is evaluated by the kernel; negation for one value |
| C106 | tables of all structs: declared members, statements of `to_json`, statements of `from_json` (generated from the sources); interpreters `enc`, `dec` | induction over the depth and the members for all tables that pass a check; the check is evaluated by the kernel; negation for a struct |
| C107 | the same | induction over the depth; negation for numbers |
| C108 | `formatTime`, `parseTime`, calendar `dateOfDays`, `daysOfDate` | calendar by linear arithmetic, digits by induction; negation for trailing text |
| C109 | `authorize`, stages `listStage`, `cacheStage`, `remote`, with failing statements and undefined behaviour as an outcome | case analysis over the stages; negations with witnesses |
| C110 | histories of `step`; specification `remembered` over the messages of the CSMS | induction over the history with the relation `Agrees`; negation for StopTransaction.conf |
| C111 | `sendList` as the statements executed, `getVersion` | case analysis, induction over the entries; negations |
| C112 | `crashedList`: a prefix of the statements | induction over the entries; negation |
| C113 | `pncAuthorize` | case analysis; reuse of C109 |
| C114 | `Tx16.S`: rows, queue, ids registered for queued messages, transactions in memory, steps of the application thread; `Ev` log of the CSMS | invariant `Inv` (40 clauses) by induction over all histories; negation by a concrete history |
| C115 | as C114 | `Inv`; two negations |
| C116 | `restart`, `resumeOne` | induction over the rows |
| C117 | `changeInterval`: null pointer as `none` | invariant: active transactions have timers; negation |
| C118 | `remoteStop`, `run` | case analysis; induction over all histories with the invariant `J` (queue, table, unacknowledged transactions) |
| C119 | as C114 | invariant `Ord` by induction over histories; negation |
| C120 | `Prof16.S`: installed profiles, rows, running transactions; `validate`, `setProfile`, `remoteProfile` | equivalence of `validate` with the rules `Valid`; case analysis; invariant `Inv` by induction over all histories |
| C121 | `clearProfile` | case analysis; `Inv` |
| C122 | `restart` | what a restart computes, by induction over the rows; invariant `Kept`; negations |
| C123 | as C120 | induction over histories; negation |
| C124 | `clearExpired` | `Inv` |
| C125 | `inEffect`, `txEnd` | case analysis; negations |
| C126 | `Boot.step`: the message queue with `handle`, `recv`, `timerFires` | invariant by induction over histories; negations |
| C127 | `restart16` | invariant over all histories after the restart; negations |
| C128 | `handle16`, `handle2`, `setHeartbeat` | invariant by induction over histories; negations |
| C129 | `reaction16`, `reaction2` | invariant relating the two variables; case analysis; negation |
| C130 | `change` | case analysis over the branches of `set`, table of keys by `decide`; negation |
| C131 | `change`, `store`, `restart` | reading of each value against an independent description; invariant `configuration = base merged with file` over histories; negations |
| C132 | `get`, `set`, `change`, `told` | uniqueness of the names up to case; negations |
| C133 | `check` for each rule of the table | characterisation of the number and boolean parsers; negations |
| C134 | `startOk`, `restart` | invariant over histories; negations |
| C135 | `getSome`, `getAll` | induction; two-run comparison; negation |
| C136 | `change` | a witness value for each rule; negation for all values |
| C137 | `askProfile`, `switchTo`, `stoppedConnecting` | case analysis; invariant over histories; negations |
| C138 | `callback16`, `callback2`: all outcomes of the skeleton of the handler | all skeletons, for all messages, states and failures; negations |
| C139 | `callback16`, `callback2` | all skeletons of results; negation while pending |
| C140 | `Session16`, `Session2`: sequences of messages | induction over the sequence; negations |
| C141 | `callback16`, `callback2` | exceptions of all skeletons against those that are caught; negations |
| C142 | `initDb` as two generic loops over rows (`Sync`), instantiated for components, variables, attributes, monitors; histories `Op` | laws of the four instances, one invariant of the loops, induction over the history; negation |
| C143 | `initDb`, `allConfigs` | the same invariant read off at every level (`Mirrors`); induction over the files; negations |
| C144 | `attrSync`, `applyValue` | the row of an attribute after a start (`attr_after`), case distinction; negations |
| C145 | `integrity`, `initDb` | equivalence with the typed specification, absence of exceptions through the loops; negation |
| C146 | `crashed`, `startUp` | induction over the interruptions: a start does not see rows without entry; negation |
| C147 | `initDb` twice | every row made by a start is a fixed point of the update; negations |
| C148 | `base64Encode`, `base64Decode`, `authHeader`, `handshake` | strong induction over the bytes in threes; injectivity from the round trip |
| C149 | `parseAndValidate`, `target` | case analysis; a scheme at the start of the address is the one that is parsed |
| C150 | `target` | specification by the parts of the address; parsing lemmas for each part; negations |
| C151 | `stoul` | a number out of range has twenty digits, which lie in the address; negation |
| C152 | `Uri.string` | the reported address is well-formed (decimal round trip), then C150; negation |
| C153 | `reconnectInterval`, `pass` | invariant: backoff between the bounds of the specification for the present streak; negation |
| C154 | `retry`, `pass` | the counter is the streak plus one; induction over the passes; negation |
| C155 | `pass`, `observed` | induction over the passes |
| C156 | `pingStep` | invariant: the timer runs; induction over the ticks |
| C157 | `pingStep` | invariant: a missing pong is a ping unanswered on this connection; negations |
| C158 | `keepStep` | invariant over the events; negations for all later events |
| C159 | `keepStep` | invariant; negation |
| C160 | `sendStep` | invariant: identifiers grow along wire and queue |
| C161 | `sendStep` | the same invariant; induction over the unwritten messages; negations |
| C162 | `recvStep` | induction over messages and pieces; negation |
| C163 | `wantedOf`, `samplesOf`, `latest`, `step` | table of readings (`Spec.lean`) per measurand and phase; induction over the key and the history; negations |
| C164 | `step`, `stopData` | induction over the history of the transaction; negation |
| C165 | `V16.onReading`, `V2.onReading`, `setTriggers` | induction over the events after the message; negation |
| C166 | `powerPart` of both versions | induction over the events, invariant relating the stored power to what was told; negation |
| C167 | `setTimer`, `fire` | induction over the events; negations |
| C168 | `V16.onStatus` | invariant over the history before, induction over the events after; negations |
| C169 | `sessionCost`, `stoi` | induction over the connectors and the digits; negations |
| C170 | `userPrice` | search in lists; negations |
| C171 | `step` of `Trig16`, statuses as functions of the history in its `Spec` | invariant over the history; negations |
| C172 | `onTrigger`, `onExtTrigger` | the same invariant; negations |
| C173 | `Reset.step` with the waiting thread step by step | invariants and induction over the events; negations |
| C174 | `onDataTransfer`, `registry` | invariant over the registrations; negations |
| C175 | `onUnlock` | cases; negation |
| C176 | `onReserve`, `onCancel` | cases; negation |
| C177 | `rotationOk`, `rotationElement`, `splitAll` | induction over the text for the splitting, both directions; negations |
| C178 | `offsetOk`, `pieces`, `stoi` | induction over the text for the splitting, both directions; negation |
| C179 | Files with names and contents, rotation as operations of the file system, entries and restarts | Invariant over the history: the files are the canonical ones with the newest parts of what was written; every prefix of the operations of a rotation keeps all entries |
| C180 | The same files | Invariants over the history: number of files, and their sizes |
| C181 | The logger of the charging station with those of the sessions | Induction over the history against the list of messages since the start |
| C182 | The map from ids to types in the logger | The map is not changed by messages with other ids |
| C183 | The line of HTML for a message | What a browser displays, as a function of texts, is computed for the parts of the line |
| C184 | The function that logs security events, with the callback that reports deletions | Case distinction on the rotation; the nested call meets its own mutex |
| C185 | The map from ids to types in the logger | Induction over the history |
| C186 | The files of the log, with tags | Invariant over the history |
| C187 | State of the block with the list of what is sent | Invariant: what is remembered is the end of what was sent |
| C188 | The same | The same invariant; negation |
| C189 | The same | Induction over the history |
| C190 | The same | Induction over the history for what is waited for; negation |
| C191 | `handle_firmware_update_req` | All cases |
| C192 | `handle_set_display_message` on texts, with the lists as comma separated texts | Splitting and trimming characterised, then all cases; negations |
| C193 | `handle_get_display_message` over the application's list | Induction over the list; negations |
| C194 | Updater thread as a phase (none, waiting, asking), the mutex as blocked callers; a trace of events | Invariant: the trace is a sequence of complete or failed updates |
| C195 | The same model with a clock | The deadline is a function of the trace; the thread's step at its deadline |
| C196 | The same model, `std::terminate` as an outcome | Invariant with the number of starts to come; negations by two histories |
| C197 | The same model, the reading thread blocked on the mutex | Case analysis; negation by a history |
| C198 | The three timers, with time in seconds and everything that sets them | Closed form of a timer through a history, by induction; off stays off, by induction |
| C199 | The same model | The same closed form |
| C200 | handle_cost_and_tariff with any configuration, request and answer | Closed forms; the largest energy by induction over the meter values |
| C201 | The same model | The messages kept are a filter, by induction |
| C202 | handle_costupdated_req with custom data and triggers | Case analysis |
| C203 | The two timers, connection callbacks, acceptance, time in seconds | Invariant over all histories: the timers are due within the wait; a due timer fires, by induction on the wait |
| C204 | The same model, with time_disconnected | Induction over the history offline |
| C205 | isHexNotation, hexToString with strtol of the first two characters | Induction over the pairs of digits |
| C206 | split_string at commas and the checks of the pieces | Induction over the text: what the pieces are; and over the list: splitting inverts joining |
| C207 | The queue model of C01-C14 | Invariants over the micro steps of every operation |
| C208 | Each function as a function of what the future delivers; destroyed promises from the queue model | Case distinction over all outcomes; violation on histories of the queue |
| C209 | Interleaving of authorization threads and the processing thread; mutex, condition variables, maps | Invariant over all schedules |
| C210 | As C209 | Invariant under the condition that authorizations of one token do not overlap; witnesses for the violations |
| C211 | As C209 | Invariant: whoever is stuck stays stuck or ends without answer |
| C212 | The security module as an arbitrary function; conversions of types and results | Case distinction over types and results; one lemma on answered requests |
| C213 | As C212, lists converted with exceptions | Induction over the lists; witnesses for the violations |
| C214 | As C212 | Case distinction |
| C215 | Events with type, text, criticality and settings | Case distinction; names against the list of the standard |
| C216 | Histories of connections and failures | Induction over histories |
| C217 | The comparison operators on texts as lists of codes; the map as a sorted list | Strict total orders by lexicographic composition; induction over the items; cycle as witness |
| C218 | As C217, look-up | As C217 |
| C219 | The device model of C36-C73 with the copies of values in queue, timers and connection | Invariant over all histories; the items of a request one by one |
| C220 | As C219 | Case distinction over the effects; witness |
| C221 | The handlers on top of the models of the store (C20) and the calculation (C16, C19) | Splitting of the list of units as in C192; C19 and C16 applied to what is stored |
| C222 | As C221 with the purposes to ignore and the state of the connection in 1.6 | Equality of the profiles used; induction over connection histories for the violation |
| C223 | As C221 | As C221 without simulated transaction |
| C224 | The check as the first failure of a list of checks over the device model of C36 | Each check against its meaning; counting of components by lists without repetitions; tables of names compared by decide over all their rows |
| C225 | Histories of `setValue`, `setVariables` and `setReadOnlyValue` | Invariant: a value is replaced, never removed |
| C226 | As C225 | Invariant: accepted values have the type (C36_type) |
| C227 | Product of the models of C31–C33 and C36; reports write the device model | Refinement to the model of C33; invariant that the value is the status last reported |
| C228 | As C227 | Invariants over all steps |
| C229 | The loop over the stored profiles as a fold over the table | Induction over the profiles; acceptability is monotone in the table |
| C230 | As C229, after every history of C20–C23 | Invariants of C54; the checks of 2.0.1 and 2.1 compared |
| C231 | Receiving threads as processes over the shared queue, one step per operation of the queue, arbitrary interleavings | Invariant over all schedules; progress by induction on the queue |
| C232 | As C231, taking from an empty queue as a distinct outcome | Invariant; counterexample schedule |
| C233 | The worker thread with the steps of the wait, arbitrary interleavings | Invariant: called, held and queued callbacks are the pushed ones |
| C234 | As C233, with the stop flag of the destructor | Induction on the queue; counterexample schedule |
| C235 | The EVSE with its averages, timers and database over histories of measurements, timers, transactions and restarts; reuses the averages of C102 | Invariant relating the state to functions of the history; induction over histories |
| C236 | As C235, with the database of C48 and the filter of C101 | Invariant: the rows of the running transaction are its readings; counterexamples |
| C237 | As C235; timers as start point, interval and next instant (C46) | Invariant over histories |
| C238 | Functions as missing, empty or given; features at the start; each event as the list of functions called and parts used under their guards | Case analysis over all events; exact condition; counterexamples |
| C239 | As C238 | As C238 |
| C240 | Registered functions; each event as the list of functions called and answers sent | Case analysis over all events; exact conditions; counterexamples |
| C241-C244 trust in the CSMS | one attempt as a function of the options, the answers of the certificate store and the libraries, and the server's chain | induction on the chain and on the list of attempts; iff with a separate specification of a trustworthy server |
| C245 | `Verif.EndToEnd`: a station is the state of `Verif.Tx` and of `Verif.MQ` and the contents of the messages; one act is an operation of either, a restart of both, or a power cut after any step and any database write | invariant over acts: the transactions are a run of a sub-history, the queue keeps its invariant, numbers of messages increase with the events; then C01's sorted transmissions and C29's strictly increasing numbers |
| C246 | the same | invariant for calm histories: the queue is a run without power cuts and took every event; then C03's reasons |
| C247 | the same | C246, C29 (no gaps) and C61 (life cycle) |
| C248 | rounds of a successful transmission and its answer on the model of the queue | induction on the number of queued messages: a round removes exactly one message and answers it; readiness is preserved |
| C249 | `Verif.EndToEnd` with these rounds as acts | C248 and C247 |
| C250 | array in the configuration and in the file, parser of the name, exceptions of the bounded strings as outcomes | invariant over histories relating the array to the last key set; exact characterisation of the parser |
| C251 | threads as sequences of operations on mutexes, generated from the table of critical sections; any interleaving | order of the mutexes: invariant over all schedules, the thread that waits for the last mutex can go on; table checked by `decide`; negations by schedules |
| C252 | the configuration of C130-C137 with the timers, message queue, connection and application as separate copies; histories of operations with restarts | invariant: each copy is the function of the configuration, per key a frame lemma for changes; negations by histories of two to four steps |
| C253 | the same, with the timer for the time offset and time that passes | invariant while the timer runs (before the date) and after it; negations by histories |
| C254 | The queue model of C01-C14 | case distinction of the conditions in every reachable state; the number of the message is new by the invariant |
| C255 | The model of C194 | invariants of the reached and of the stopped states, by induction over the history |
| C256 | The setting as a text, its reading with the exception, the queue model of C01-C14 | the pieces of the text up to the first unknown one are those of a beginning of the text; the configuration is an invariant of the history |
| C257 | The reading of the setting with its exceptions, the table of the messages of the profiles, message_callback as in C138 | the parts of the text by induction; the table of the code is compared with that of the standard for all requests; C138 |
| C258 | The reading of the setting in 1.6 and 2.x, the files opened by the logger and the places an output goes to | substrings without commas lie within the pieces of the text; all combinations of the arguments |
| C259 | The worker and the stop as steps between the accesses to the flag, the mutex and the condition variable, in any interleaving | invariant of the states; a measure of the turns the worker still needs; the missed notification as an invariant |
| C260 | The deletion by CustomerInformation and ClearCache and the report from the cache, in the histories of C24 | the provenance of the rows of one key since the erasure, by induction; C24 |
| C261 | The cleaning thread, triggers and stop as steps between accesses to the mutex, the condition variable and the flags | invariant of the states; measures of the turns until the next round and until the end |
| C262 | The texts of the measurand keys and of SupportedMeasurands, character by character | splitting and joining are inverse on the names; induction over the list and over the changes |

## Disagreements between code and property

The following theorems prove, each by a concrete history of the model, that a property is false of the
code. The texts are the comments of the theorems.

* `MQ.C02_violated_by_race`: C02 is violated in the network view by a race (and the missing part of `C02_network_partial`): a CALL is transmitted while another one is outstanding and its response time is not over.
* `MQ.C05_violated`: C05 is violated: with two attempts configured a transaction-related message is given up after it was transmitted only once.
* `MQ.C07_violated`: C07 is violated: a message's promise is set twice, which takes the process down; and the message that was ahead of it has disappeared although nobody sent it.
* `MQ.C10_violated`: C10 is violated: a CSMS request (id 77) arrives while a CALL of the station is outstanding; the CALLRESULT of that CALL lifts the hold, and the next CALL goes out before the reply.
* `MQ.C11_violated`: C11 is violated: the response timer expires, the answer is processed before the timer's callback gets the lock, and the callback dereferences a null pointer.
* `MQ.C12_violated`: C12 is violated (1): a transaction message handed over before the station is accepted is stalled; the worker goes to sleep; acceptance does not wake it, so the message is sendable but the worker never looks.
* `MQ.C12_violated_timer`: C12 is violated (2): there is one wake-up timer for all retries. A BootNotification retry is planned for time 60; then a transaction message times out and its retry, planned for time 0, overwrites the timer. When time 60 has come nothing wakes the worker for the BootNotification.
* `SC16.C17_plain_violated`: C17 (violated for the plain schedule). The schedule sent to the CSMS can contain consecutive periods that do not differ, because the stack level that made them different is dropped.
* `PS.C20_remote_start_violated`: C20 (TxProfiles, violated otherwise). RequestStartTransaction can add a second TxProfile with the transaction id and stack level of a stored one.
* `PS.C21_negative_limit_violated`: C21 (negative limits, violated). Negative limits are accepted; −1 then means "no limit" in composite schedules, so that the composite limit of the EVSE is the default of 48 A.
* `PS.C22_violated`: C22 (violated). Whatever is stored, no external constraint takes part in a composite schedule: at no instant does one decide about an EVSE. (A stored external constraint conflicts with itself when it is validated again.)
* `PS.C23_case_violated`: C23 (once, violated). Two profiles of an EVSE whose sources differ only in case are both reported twice.
* `Auth.C25_contract_violated`: C25 is violated for contracts: the setting is not consulted and the request goes out.
* `Auth.C26_database_error_violated`: C26 is violated when a database statement fails: the request is answered Failed, and yet the old list is gone.
* `Auth.C27_violated`: C27 is violated: a power cut between the statements leaves neither the old nor the new list; here the list is empty under the old version.
* `Auth.C28_timeout_violated`: The same while online: the CSMS does not answer in time and its accepting answer is lost.
* `Auth.C28_violated`: C28 is violated: an offline attempt (local authorization offline not permitted) replaces the accepting answer of the CSMS in the cache by the station's own Unknown.
* `Tx.C29_database_violated`: C29 fails if the database refuses a write: the failure is only logged, and after a restart the number is handed out again.
* `Tx.C30_idle_evse_violated`: C30 fails: an OnIdle request for an EVSE without transaction is answered with Scheduled because another EVSE has one; the EVSE is not reset when that transaction ends.
* `Tx.C30_other_stopped_violated`: C30 fails: an Immediate reset of an idle EVSE stops the transaction of another EVSE.
* `Tx.C30_station_lost_violated`: C30 fails: a scheduled reset of the station is forgotten when a reset of one EVSE is scheduled as well: after all transactions have ended only the EVSE was reset.
* `Avail.C31_block_violated`: (c) A Scheduled request to make an EVSE Operative makes its idle connectors Inoperative, and they stay so.
* `Avail.C31_cancel_violated`: (d) When a Scheduled request for the station is taken back, the idle EVSEs stay Inoperative.
* `Avail.C31_erased_violated`: (a) A request that is Accepted because nothing has to be done erases a Scheduled one of the same EVSE.
* `Avail.C31_firmware_violated`: (f) The preparation of a firmware update replaces a Scheduled request: after the next restart its effect is not there.
* `Avail.C31_operative_violated`: (b) An Operative request for an Inoperative station with a transaction is Accepted, but not executed.
* `Avail.C31_replaced_violated`: (g) A Scheduled request for one connector is replaced by one for another connector of the EVSE.
* `Avail.C31_restart_violated`: (e) A Scheduled request is forgotten at a restart that resumes the transaction.
* `Avail.C31_temporary_violated`: (h) A request for a status the component only has temporarily is Accepted, but lost at a restart.
* `Avail.C31_throws_violated`: EVSE 0, and connectors below 1, are not answered at all: the handler throws.
* `Avail.C33_reserved_violated`: The cable of a reserved connector is plugged out: the CSMS is not told, and goes on to see it Occupied.
* `Conn16.C34_reserved_violated`: C34 (violated): the application programming interface looks at the masked status when a session starts, so a fault can lose the reservation: the same calls leave the connector Reserved without the fault and Preparing with it, although the fault was cleared.
* `Rem.C35_invalid_violated`: C35 violated: a start with an invalid charging profile is accepted, without the profile; it should be rejected (F01.FR.26).
* `Rem.C35_purpose_violated`: C35 violated: a charging profile of another purpose than TxProfile is ignored, and the start accepted as if there were none.
* `Rem.C35_rejected_violated`: C35 violated: the charging profile of a start that is rejected, because a transaction is running, is stored, and may replace another profile with that id.
* `Rem.C35_remote_id_violated`: C35 violated: the id of a start is remembered before the application is asked; if the application rejects, the next transaction of that token on the EVSE is reported with it (see C63).
* `DM.C36_refused_violated`: C36 is violated in the other direction too: a variable with the limits -10 and 10 refuses -5.
* `DM.C36_violated`: C36 is violated: an integer is compared with a `size_t`, so every negative integer counts as larger than any limit. A variable with the lower limit 1 accepts -5.
* `Mon.C37_periodic_violated`: C37 is violated by periodic monitors: the value of a write-only variable is sent to the CSMS.
* `DM.C37_summary_violated`: C37 is violated by the summary inventory, which reports values without looking at their mutability.
* `DM.C37_violated`: C37 is violated by GetReport: the report it causes contains the values of WriteOnly attributes, such as the password of the station.
* `Rep.C38_violated`: C38 is violated by every report of more than ten monitored variables: only the first ten are sent, all messages but the first are empty.
* `Rep.C40_size_violated`: C40 is violated: the length of the sequence number is not taken into account. The eleventh message of a report, with two entries, is longer than the limit.
* `Con.C41_violated`: C41 is violated: when the connection with slot 2 is confirmed twice (a BootNotification is triggered), the security profile of slot 3 is confirmed; then the websocket reconnects with the lower one.
* `Con.C42_violated`: C42 is violated when a slot occurs twice in the list: the slots after it are never tried, however often the connection fails.
* `Sec.C43_attempt_violated`: C43 violated: the number of the attempt is not reset if the CSR of a repetition cannot be generated: of the next exchange the first waiting time is doubled, and with one repetition configured it has none.
* `Sec.C43_crash_violated`: C43 violated: the timer is not stopped when the CSMS refuses. If the CSMS sends a certificate before its answer, the answer starts the timer of the next exchange; if that is refused, the timer reads an empty optional.
* `Sec.C43_lost_violated`: C43 violated: if SignCertificate.req is answered with CALLERROR, or not answered, no other is sent until the CSMS sends a certificate by itself: expired certificates are not renewed and TriggerMessage has no effect.
* `Str.C44_printable_violated`: C44 violated: a CiString accepts characters that are not printable ASCII, although its description excludes them.
* `Str.C44_utf8_violated`: C44 violated: a text that is cut may end in the middle of a character, for every bound; the JSON library then throws when the message with it (the details of a SecurityEventNotification) is written.
* `Str.C45_map_violated`: C45 violated: texts that are equal are ordered by `<`, so that a map can hold both and does not find the one under the other.
* `Str.C45_ne_violated`: C45 violated: `!=` is not the opposite of `==`: it is true of texts that are equal but for the case, for every text with a letter.
* `Met.C46_late_violated`: C46 violated: an instant is skipped if the callback takes longer than the interval.
* `Met.C46_midnight_violated`: C46 violated: if it does not, the timer is never realigned: it does not fire at the following midnight.
* `Met.C46_timestamp_violated`: C46 violated: if the interval does not divide a day, the time stamps of the values of the second day are not the instants they are taken for: with 7 hours, the value of 04:00 gets 07:00, three hours ahead.
* `Met.C47_violated`: C47 violated: a message without meter values that is too large is not sent: an exception is thrown.
* `Met.C48_custom_violated`: C48 violated: if a sample has custom data, none of the values of the transaction can be read any more.
* `Met.C48_location_violated`: C48 violated: the location of a sample is also stored for the samples after it that have none.
* `Met.C48_signed_violated`: C48 violated: a signed value without public key or signing method is lost.
* `Met.C48_unit_violated`: C48 violated: so are the parts of the unit; here the multiplier of a value in kW makes one out of the next, in V.
* `Wire.C49_violated`: C49: `InternalError` of OCPP 1.6 is written, but what is written cannot be read.
* `SC.C50_v2_violated`: C50 (OCPP 2.x, violated). As in OCPP 1.6: without a duration a recurring profile that starts at 1000 limits the schedule at instant 100.
* `SC16.C50_violated`: C50 (violated). A recurring profile is applied before its `startSchedule`: here the start is at 1000 and the profile limits the composite schedule at instant 100, which the recurrence one day earlier covers.
* `SC2.C51_default_violated`: C51 (violated). A setpoint of 100 A without a limit: the composite schedule has the default limit 48 A and the setpoint 100 A.
* `SC2.C51_mixed_units_violated`: C51 (violated). A TxProfile with setpoint 30 A and a station limit of 3000 W: the composite schedule has the limit 3000/690 A and the setpoint 30 A.
* `SC2.C52_zero_violated`: C52 (violated). An external constraint that forbids discharging (limit 0 A) is ignored: the composite schedule allows the 20 A of the TxProfile.
* `SC2.C53_phase_limits_violated`: C53 (violated). With OCPP 2.1 the change of the limit of the second phase is not in the composite schedule: at instant 200 the period in force says 6 A for the second phase and the composite schedule says 32 A.
* `SC2.C53_station_violated`: C53 (violated for the station). With OCPP 2.1 the composite schedule of the station has values per phase although no profile has any: 9000 W become 3000 W per phase. The conclusion of `C19_station` does not hold: the limit is not one of the limits.
* `PS.C54_remote_start_violated`: C54 (violated, RequestStartTransaction). A TxProfile without a transaction id, which is how it comes with RequestStartTransaction, is never used, whatever happens afterwards: neither before nor after its transaction starts.
* `PS.C54_single_phase_violated`: C54 (violated, single phase). On a single-phase station an accepted profile without a number of phases is stored with three phases, found invalid when it is read again, and has no effect.
* `PS.C54_transaction_id_violated`: C54 (violated, transaction ids). An accepted TxDefaultProfile that carries a transaction id switches off the TxProfile of that transaction with the same stack level, and disappears when the transaction ends.
* `PS.C55_all_violated`: C55 (violated). A ClearChargingProfile request without id and criteria removes external constraints too.
* `PS.C55_by_id_violated`: C55 (violated). A ClearChargingProfile request with the id of an external constraint removes it.
* `PS.C55_empty_violated`: C55 (violated). ClearChargingProfile without id and criteria is answered Accepted although there was no profile to remove.
* `Auth.C57_case_violated`: C57 is violated for the case: two spellings of one token have different rows, so that a token that is blocked in the list is unknown to the list in the other spelling, although the list refuses to hold both.
* `Auth.C57_custom_type_violated`: C57 is violated for types outside the specification (OCPP 2.1 allows any string): two different tokens, of different type and id, share the row, and one is accepted for the other.
* `Tx.C61_dropped_violated`: C61 (a started transaction ends) fails: after a restart without ResumeTransactionsOnBoot the transaction is dropped and never gets an Ended event.
* `Tx.C61_ended_twice_violated`: C61 fails: power cut between the Ended event and the deletion of the row; the transaction is resumed and ends a second time.
* `Tx.C61_replaced_violated`: C61 (a started transaction ends) fails: a second start at the same EVSE replaces the running transaction without an Ended event for it.
* `Tx.C61_started_lost_violated`: C61 fails: power cut between the storage of the new transaction and its Started event; it is resumed and its first event is Updated.
* `Tx.C62_restart_violated`: C62 fails after a restart: the charging state is not updated in the database, so after a restart the station believes in the state of the start, and a report of that same state is swallowed: the CSMS keeps the state Charging.
* `Tx.C63_wrong_id_violated`: C63 fails when the application reports a transaction of another user first: a remote start for no EVSE in particular (id 8) and one for EVSE 2 (id 7) with the same token; the transaction of EVSE 2 gets id 8.
* `Avail.C64_evse_violated`: An EVSE whose transaction ran when the update was prepared stays Inoperative after the update.
* `Avail.C64_failed_violated`: If the update fails before the transaction ends, the EVSE becomes Inoperative when it does.
* `Avail.C64_unblocks_violated`: Connectors blocked because a request is Scheduled are operative again, although the request still is pending.
* `Avail.C65_cancelled_violated`: A request that is Accepted because nothing has to be done takes the block of a waiting update away: it is never told that all connectors are unavailable.
* `Conn16.C67_zero_violated`: C67 (violated): the reduced table for connector 0 is not used, so a reservation of the whole charge point gives connector 0 a status OCPP 1.6 does not allow for it.
* `Conn16.C68_during_violated`: C68 (violated): a scheduled change is executed during a transaction when the confirmation of an older transaction of the connector arrives late.
* `Conn16.C68_overridden_violated`: C68 (violated): a request answered Accepted after the transaction, but before the end of the session, is overridden by the older scheduled one.
* `Conn16.C70_failed_violated`: C70 (violated): an update that fails while a transaction is running leaves the connector to be disabled at the end of the session.
* `Conn16.C70_installed_violated`: C70 (violated): a successful installation does not end the update for the charge point: when the next transaction ends, all connectors are disabled again.
* `Conn16.C70_stored_violated`: C70 (violated): a request of the CSMS for one connector stores the temporary unavailability of another one for good: after the update and a restart that connector is Inoperative, although the CSMS never asked for that.
* `DM.C73_told_violated`: C73 is violated: with the same two items the other way round the application is told of a change of the item that was refused.
* `DM.C73_violated`: C73 is violated: results are kept in a map that does not distinguish the attributes of a variable. A request for the Actual and the Target of one variable gets one result only; the accepted change of the Actual value is neither reported to the CSMS nor to the application.
* `DM.C76_violated`: C76 is violated: the status of the response is read before anything was written to it. If the memory happens to contain NotSupported, a request without any criteria is answered NotSupported and no report is sent.
* `Mon.C77_violated`: C77 is violated: a request with the id of a monitor and another variable is accepted. In the database the monitor moves to the other variable; in memory it then exists twice, until the next restart.
* `Mon.C78_violated`: C78 is violated: SetVariableMonitoring with the id of a hard-wired monitor turns it into one of the CSMS, which can then be cleared.
* `Mon.C80_violated`: C80 is violated for every integer variable: the threshold is validated as a text with six digits after the point, which is not the text of an integer. Every threshold and every delta monitor is Rejected, whatever its value.
* `Mon.C82_inactive_violated`: C82 is violated: a periodic monitor that is not active (another monitoring base, or a severity above the level) stops the timer's processing for ever.
* `Mon.C82_value_violated`: C82 is violated: a periodic monitor on a variable without a value throws out of the timer's run, once it is due.
* `Mon.C82_violated`: C82 is violated: once the updater knows a periodic monitor, the processing of triggered monitors, which follows every SetVariables request, never ends: the iterator is not advanced past it.
* `Mon.C83_discarded_violated`: C83 is violated when an alert is discarded: the CSMS was told of the alert, then the station is offline and does not queue events of that severity. The return to normal is never reported, whenever the station is online again.
* `Mon.C83_queued_violated`: C83 is violated: while offline, an alert of a severity that is to be queued and the return to normal are generated, and dropped; nothing is ever sent.
* `Mon.C83_short_violated`: C83 is violated: a short alert between two runs is reported only as having ended; a short return to normal is not reported at all, but the alert is reported again.
* `Mon.C84_reference_violated`: C84 is violated for every numeric variable and every history: evaluating a monitor never changes the reference values.
* `Mon.C84_violated`: C84 is violated: the reference of numeric delta monitors is never updated. After 80 was reported, a change by one is reported as well; back at 60, nothing is.
* `Mon.C85_violated`: C85 is violated: a run within the second after an aligned instant generates an event and computes the same instant as the next one, so that the next run generates a second event for it, whenever that is.
* `Mon.C85_zero_violated`: C85 is violated: an aligned monitor with an interval below one second is accepted; computing its instant is undefined behaviour.
* `Con.C87_violated`: C87 is violated: the slots with a lower security profile are removed from the list, but the index of the active one is kept. After that the station takes slot 3 for the active one: confirming the connection with slot 2 again sets SecurityProfile to 3 and removes the profile of slot 2.
* `Con.C88_violated`: C88 is violated: two slots, the second one has a higher security profile. The connection with the second is confirmed; then the first one is removed, and the index of the active one is beyond the list. When the connection closes, an exception is thrown in the thread of the websocket, and the station never reconnects.
* `Con.C89_violated`: C89 is violated: `connect` while a retry is pending does not stop the timer. The connection it opens is established, and then replaced by one with the next slot.
* `Con.C90_violated`: C90 is violated: a slot number beyond the range of `int` throws an exception that is not handled.
* `Mon.C92_violated`: C92 is violated for triggered monitors: the value exceeds the threshold, then the CSMS clears the monitor; the alert of the monitor that no longer exists is sent by the next run of the timer.
* `Mon.C93_violated`: C93 is violated: a threshold below the current value is set (`exAlarm`: the value is 60, the threshold 50); no event is sent, however often the monitors are processed, until the variable changes.
* `Rem.C97_violated`: C97 violated: a connector number that is not positive is not UnknownConnector: the application is asked to unlock it. And EVSE 0 is answered with CALLERROR, not with UnknownConnector.
* `Rem.C98_sign_violated`: C98 violated: TriggerMessage(SignChargingStationCertificate) is answered Accepted although no SignCertificate is sent, because another exchange is going on or the names for the request are not configured.
* `Rem.C100_violated`: C100 violated: the answer of the CSMS to a message of the station, for example to a StatusNotification asked for with TriggerMessage while Pending, is answered with CALLERROR SecurityError; only CALLs may be answered.
* `Met.C102_violated`: C102 violated: the unit and its multiplier are ignored: 1 kW and 3000 W have the mean 1500.5 W.
* `Met.C104_equal_violated`: C104 violated: if the power last reported was exactly the threshold, no change of the power is reported any more.
* `Met.C104_unit_violated`: C104 violated: the unit of the power is not looked at: a rise from 5 kW to 50 kW is not reported if the values are in kW.
* `Met.C105_restart_violated`: C105 (violated by a restart). A transaction whose token was refused is resumed after a restart: neither is the limit checked any more, nor is it after a further refusal, as the energy at the start is not known any more. Charging is never paused.
* `Met.C105_violated`: C105 violated: if there was no register value at the start of the transaction, charging is never paused, whatever is charged.
* `Wire.C106_violated`: C106: `DisplayMessageContent` is not read as it was written: the text is written under another key than it is read from, so it comes back empty.
* `Wire.C107_violated`: C107: a number that does not fit is not refused but read as another one: an EVSE with the id 4294967297 is read as EVSE 1, and so is the id 1.9 and the id `true`.
* `Wire.C108_violated`: C108: what follows the time in a text is not checked: a text with an offset the library does not understand is read as UTC instead of being refused.
* `Auth16.C109_blocked_in_list_violated`: C109 is violated: a tag blocked in the local list is accepted as unknown when the station is offline and must not authorize locally.
* `Auth16.C109_blocked_offline_violated`: C109 is violated: a tag the CSMS has blocked, as the cache knows, is accepted as unknown when the station is offline.
* `Auth16.C109_case_violated`: C109 is violated: idTags are case-insensitive, but the tables compare them byte by byte. The list blocks the tag `a1`; the same tag written `A1` is accepted from the cache.
* `Auth16.C109_database_error_violated`: Without these assumptions authorization has undefined behaviour: when the cache cannot be read, the function that looks it up ends without a return value.
* `Auth16.C109_disabled_cache_violated`: C109 is violated: with AuthorizationCacheEnabled = false a tag is accepted because of its row in the cache, offline and without any other reason.
* `Auth16.C109_no_websocket_violated`: Before the websocket is created, a tag accepted by the local list makes the station dereference a null pointer when tariffs are displayed.
* `Auth16.C110_violated`: C110 is violated: the CSMS accepts a tag, then says in StopTransaction.conf that it is blocked; the cache goes on accepting it.
* `Auth16.C111_database_error_violated`: C111 is violated when a statement fails: the answer is Failed, but the list has changed.
* `Auth16.C111_length_violated`: C111 is violated: the configured maximum number of entries (LocalAuthListMaxLength, SendLocalListMaxLength) is never checked; for every bound there is an accepted request after which the list is longer.
* `Auth16.C111_violated`: C111 is violated: the version reported for an empty list is 0 although the stored one is greater. A differential update with a version greater than the reported one is then refused with VersionMismatch.
* `Auth16.C112_violated`: C112 is violated: the version is stored before the entries. After a power cut in between, the tag that the update blocks is still accepted, the version of the update is reported, and when the CSMS repeats the update it is refused with VersionMismatch.
* `Auth16.C113_no_websocket_violated`: Before the websocket is created, Plug&Charge authorization dereferences a null pointer.
* `Tx16.C114_violated`: C114 is false of the code: the ids registered for queued messages are not persistent, and after a crash StopTransaction.req of a transaction is looked for by the id of the CSMS. The station stops one transaction twice.
* `Tx16.C115_race_violated`: C115 is false of the code even without a crash: if StartTransaction.conf is handled between the queueing of StopTransaction.req and `set_finished`, the id is not registered and StopTransaction.req is sent with the internal id.
* `Tx16.C115_violated`: C115 is false of the code: the first of the two StopTransaction.req has the internal id, which the CSMS never gave.
* `Tx16.C117_violated`: C117 is false of the code: a transaction resumed after a restart has no timer (`nullptr` in `try_resume_transactions`), and a change of the interval dereferences it.
* `Tx16.C119_violated`: C119 is false of the code: a crash between the insertion of the row and the queueing of StartTransaction.req makes the station send StopTransaction.req with a negative internal id for a transaction the CSMS has never heard of.
* `Prof16.C120_full_violated`: C120: a profile that only replaces an installed one is refused when the store is full: the CSMS cannot change a profile then.
* `Prof16.C121_violated`: C121 is false of the code for a TxDefaultProfile of connector 0: the copies of the connectors remain in effect, and the answer is Unknown.
* `Prof16.C122_copies_violated`: C122 is false of the code: if one of the copies of a profile for all connectors is cleared, the row of all is deleted, and after a restart the other copies are gone.
* `Prof16.C122_violated`: C122 is false of the code: profiles of the same purpose and stack level at two connectors are both installed, but the row of the first one is deleted from the database when the second one is stored. After a restart the first connector has no profile.
* `Prof16.C123_violated`: C123 is false of the code: one profile for connector 0 counts once for each connector, and may exceed the maximum. The station then even refuses its replacement.
* `Prof16.C125_resumed_violated`: C125: the code does not connect a resumed transaction with its connector: after a restart no TxProfile is in effect and SetChargingProfile refuses TxProfiles, until a new transaction starts.
* `Prof16.C125_violated`: C125 is false of the code for a TxProfile that came with RemoteStartTransaction: if its transaction never starts, the profile stays and is applied to the next transaction at the connector, whoever starts it.
* `Boot.C126_giveup_violated`: C126 is violated (3): with QueueAllMessages the BootNotification is given up after the configured attempts.
* `Boot.C126_overflow_violated`: C126 is violated (1): the BootNotification is in front of the queue and the first to be dropped when the queue is full.
* `Boot.C126_race_violated`: C126 is violated (4), 1.6: the answer Accepted arrives before the application's thread has noted that the connection is up; it is ignored, nothing is sent again.
* `Boot.C126_send_violated`: C126 is violated (2): the transmission of the BootNotification fails, it is not put back.
* `Boot.C127_early_violated`: C127 is violated (2), 1.6: after a restart by the application other messages are transmitted although the BootNotification was not answered yet, or was rejected.
* `Boot.C127_restart_violated`: C127 is violated (1): an OCPP 1.6 station that was registered once, is stopped and started again by the application ignores the answer to its BootNotification. Whatever happens afterwards, until the process ends the queue is never told that the station is accepted: no message kept from before, and none that waits for the registration, is ever transmitted, and no heartbeat timer is started (unless the CSMS sets the interval).
* `Boot.C128_early_violated`: C128 is violated, 1.6: setting HeartbeatInterval while the registration is pending starts the heartbeats, although no BootNotification was accepted. (The dispatcher then discards the Heartbeat messages: C08.)
* `Boot.C128_retry_violated`: C128 is violated, 1.6: the waiting time of an answer Pending or Rejected becomes the heartbeat interval, in place of the configured one.
* `Boot.C128_zero_violated`: C128 is violated, 2.x: Accepted with interval 0 (the station chooses): no heartbeat is ever sent, although HeartbeatInterval is set.
* `Boot.C129_answer_violated`: C129 is violated, 2.x: a CALLERROR or CALLRESULT that arrives before the station is accepted is itself answered with a CALLERROR, for instance when the CSMS answers the first BootNotification with a CALLERROR, or a StatusNotification that it asked for while the registration was pending.
* `Conf16.C130_unreadable_violated`: C130 is violated: when the file could not be written completely (disk full) it is replaced by an incomplete one. The next change is answered with an error, as the file cannot be read, but it takes effect: HeartbeatInterval is 5 afterwards.
* `Conf16.C131_crash_violated`: C131 is violated: when the application sets its vendor, model or serial numbers, the file is emptied and written in place. If the process ends in between, all changes are lost and the station cannot start any more.
* `Conf16.C131_full_violated`: C131 is violated: if there is no space left, the change is accepted, the file with all earlier changes is replaced by an incomplete one, and the station cannot start any more.
* `Conf16.C131_write_violated`: C131 is violated: if the file cannot be written (a read only file system), the change is accepted all the same, and it is lost at the next start.
* `Conf16.C132_auth_violated`: C132 is violated: AuthorizationKey can be changed under its name only; in any other spelling each request is answered with an error, whatever the value.
* `Conf16.C132_told_violated`: C132 is violated: the application is not told about a change of a key it registered for, if the request spells the name differently.
* `Conf16.C133_bool_violated`: C133 is violated, for all keys of `anyTextKeys`: whatever the text, it is accepted when the key has a value; if it is not "true", false is stored.
* `Conf16.C133_loose_violated`: C133 is violated: "2x" is accepted as a number of phases, any character as the separator in a phase rotation, and an empty text for ConnectorEvseIds.
* `Conf16.C134_auth_violated`: C134 is violated: ChangeConfiguration(AuthorizationKey, "41424344") is accepted, as the text has 8 characters; it is read as hexadecimal and "ABCD" is stored, which the schema does not admit: the station cannot start any more.
* `Conf16.C134_values_violated`: C134 is violated: each of these changes is accepted, and the station cannot start any more: an empty ConnectorEvseIds, an empty CentralSystemURI, a TimeOffset with leading zeros, a country of one letter outside ASCII, and a default price with an object that the schema does not admit.
* `Conf16.C135_long_violated`: C135 is violated: a default price whose indented form has more than 500 bytes is accepted. From then on GetConfiguration without keys, GetConfiguration for DefaultPrice and each change of DefaultPrice are answered with an error, so that a CSMS cannot repair it.
* `Conf16.C136_violated`: C136 is violated: the three keys for the reconnection are reported as writable, and every change of them is rejected, whatever the value.
* `Conf16.C137_back_violated`: C137 is violated: after a failed switch the station is back at profile 1. If it is stopped before it is connected again, the profile that failed is stored once more.
* `Conf16.C137_restart_violated`: C137 is violated: a switch that was never confirmed by a connection is kept when the process ends before the station gives up: after the restart the profile is 3, no connection was ever established with it, and no way back is pending.
* `Conf16.C137_text_violated`: C137 is violated: "3abc" is accepted as 3.
* `Conf16.C137_write_violated`: C137 is violated: if the file cannot be written when the profile is switched, the profile after a restart is lower than that of the last connection.
* `Recv.C138_unknown_violated`: C138 is violated in both versions: a request with an action that the standard does not know is answered with an error that carries the id -1 instead of the id of the request, whatever the state.
* `Recv.C138_violated`: C138 is violated: an UnlockConnector request with a connector that does not exist is answered with NotSupported, and then, because the connector is used as an index of a vector, with an error.
* `Recv.C139_violated`: C139 is violated while the registration is pending: every answer of the CSMS to a request of the station other than BootNotification and NotifyReport, for example to a security event, is answered with a CALLERROR.
* `Recv.C140_2_violated`: C140 is violated in OCPP 2.x: a station with bidirectional charging that is connected with OCPP 2.0.1 does not answer NotifyAllowedEnergyTransfer, and its queue waits for that answer.
* `Recv.C140_violated`: C140 is violated in OCPP 1.6: a request with the name AuthorizeResponse is not answered, and the queue waits for that answer: no other message is sent until the CSMS sends the next one. The same happens to a request that is handled after the connection is lost: also when the connection is restored, nothing is sent, because only an answer or another message of the CSMS ends the waiting.
* `Recv.C141_16_violated`: C141 is violated in OCPP 1.6: the second Reset request that the application allows ends the process by `std::terminate`.
* `Recv.C141_violated`: C141 is violated in OCPP 2.x: a request to set NetworkConfigurationPriority to 99999999999 is never answered; it is either not readable, which this one is not, or ends the process with an exception that is not caught.
* `InitDb.C142_value_survives_violated`: C142, negation in general. A component whose configuration gives the empty text as its instance is stored without instance; at the next start it is not recognised, deleted and inserted again, and the value set by the CSMS is replaced by that of the configuration.
* `InitDb.C143_mirrors_violated`: C143, negation in general. (1) A variable without attributes is not seen when the database is read: it stays when it is no longer in the configuration. (2) and every further start adds it once more. (3) A list of values that differs only in case is not updated. (4) A new source of a variable is not stored if nothing else has changed. (5) A monitor whose limit changes by less than 2⁻²³ is not updated.
* `InitDb.C144_default_value_violated`: C144, negation in general. (1) A default value that is added to the configuration of a variable without a value is never applied. (2) A value that is taken out of the configuration stays, though nobody has chosen it. (3) A value of the configuration that changes in case only (here of a case sensitive text) is not applied.
* `InitDb.C145_failure_violated`: C145, negation in general. The components that are not in the new configuration are removed before the transaction begins: when a delta monitor without reference value then raises an exception, the transaction is undone, but the components, with the values the CSMS has set there, are gone.
* `InitDb.C146_interrupted_violated`: C146, negation in general. An interruption of the very first start between the creation of the file and the commit of the schema: every later start, with whatever configuration, ends with an exception.
* `InitDb.C147_idempotent_violated`: C147, negation in general. (1) A component without a variable that has attributes is inserted again at every start: the device model grows without bound. (2) An attribute that the configuration declares not to be persistent is stored as persistent at the first start and as not persistent at the second.
* `Sock.C150_malformed_violated`: C150 is violated by addresses that are not well-formed and are accepted: without a host, with characters behind the digits of the port, and with a negative port, which wraps around.
* `Sock.C150_violated`: C150 is violated by an address that ends with the identity and a slash: the identity is added again, and the station asks for the resource `/cp1/cp1` instead of `/cp1`.
* `Sock.C151_violated`: C151 is violated by a port with twenty digits: `std::out_of_range` leaves the function, which its callers do not expect (`connectivity_manager.cpp` l.375 catches `std::invalid_argument`).
* `Sock.C152_violated`: C152 is violated by IPv6 addresses: the brackets are missing from the reported address, and it is not a valid address.
* `Sock.C153_violated`: C153 is violated by settings that the CSMS may choose (the variables have no limits): with a minimum of one minute and sixteen doublings, the seventeenth failure in a row overflows.
* `Sock.C154_violated`: C154 is violated: a limit of three attempts gives four.
* `Sock.C157_payload_violated`: C157 is violated by an empty payload: the ping counts as sent but is never written, and every connection is closed for a missing pong.
* `Sock.C157_violated`: C157 is violated when the connection is lost while a ping is unanswered: the station still waits for the pong on the next connection and closes it, although no ping was sent on it.
* `Sock.C158_switch_violated`: C158 is violated when the application connects in the two seconds before a switch of the security profile: the timer replaces that connection by an attempt with the new profile and a limited number of attempts, and when that fails there is no way back to the old profile any more.
* `Sock.C158_violated`: C158 is violated by a missing pong: the connection is closed and nothing opens a new one. Whatever the network and the timers do from then on, the station stays disconnected, although the application wants a connection.
* `Sock.C159_violated`: C159 is violated when the station is not connected at that time: the call does nothing, and the station goes on connecting.
* `Sock.C161_empty_violated`: C161 is violated by an empty message: `send` returns true, but nothing is transmitted.
* `Sock.C161_violated`: C161 is violated for the answer false: `send` gives up after a second (or finds the connection lost), but the message stays in the queue and is transmitted afterwards, or has been transmitted already. The caller, who sends it again, sends it twice.
* `Sock.C162_violated`: C162 is violated by a message that the peer sends in two frames, as the WebSocket protocol allows: each frame is passed on as a message of its own.
* `Met16.C163_location_violated`: C163 fails: when the location of the state of charge is none of OCPP, the handler of the timer throws and nothing is sent.
* `Met16.C163_neutral_violated`: C163 fails: the current of the neutral conductor is not sent although it was measured and N is one of the phases that are sent.
* `Met16.C163_temperature_violated`: C163 fails: a temperature whose location is none of OCPP is reported for the location of the sensor before it.
* `Met16.C163_twice_violated`: C163 fails: a measurand that is listed twice is sent twice (only its total, not its phases).
* `Met16.C164_stop_violated`: C164 fails: a measurand that is only in StopTxnSampledData and not in MeterValuesSampledData is never told, although it was measured.
* `Price.C165_none_v2_violated`: C165 fails for OCPP 2.x: a cost message without triggers leaves those of an earlier message in place, here an energy that is reached later.
* `Price.C166_side_violated`: C166 fails (both versions): if the first power is exactly the threshold, no crossing is ever told.
* `Price.C167_offset_v16_violated`: C167 fails for OCPP 1.6: with DisplayTimeOffset "-05:30" a trigger for twelve o'clock fires at half past seven (the time plus -5 hours plus 30 minutes), which is neither that time nor that time in the zone of the offset (17:30).
* `Price.C167_past_v16_violated`: C167 fails for OCPP 1.6: a time that is in the past leaves the time of an earlier message in place.
* `Price.C167_stale_violated`: C167 fails (both versions): a cost message without time trigger leaves the time of an earlier message in place.
* `Price.C168_repeated_violated`: C168 fails: the first report after the cost message is taken for a change, even if it repeats the status (as the report of an error does).
* `Price.C168_stale_violated`: C168 fails: a status that was sent for an earlier cost message and was left while no status trigger was set is not sent when it comes back.
* `Price.C169_final_violated`: C169 fails: the final cost of a session, which comes after its transaction has stopped, is refused.
* `Price.C169_negative_violated`: C169 fails: a transaction with a negative number never gets its cost if the number is sent as a number; the handler throws.
* `Price.C169_text_violated`: C169 fails: texts that are no number throw, and those that only begin with a number are taken for that number.
* `Price.C170_case_violated`: C170 fails: id tokens are not case sensitive, but a price for the token in other letters is not for the session.
* `Price.C170_stopped_violated`: C170 fails: while the answer to StopTransaction.req is missing, a price for the next session of the token is taken to be for the session that has ended.
* `Trig16.C171_harmless_violated`: C171 (violated): asking for the status of an update that is over (installed) makes the connectors unavailable again.
* `Trig16.C171_unset_violated`: C171 (violated): before the first report of a signed update, or of the upload of a log, the status that is sent on request is made of values that were never set.
* `Trig16.C172_empty_violated`: C172 (violated): a request for meter values is accepted although nothing is sent, if the key MeterValuesSampledData asks for nothing that was measured.
* `Trig16.C172_sign_violated`: C172 (violated): an extended request for a new certificate is accepted although no signing request can be made.
* `Trig16.C172_unmeasured_violated`: C172 (violated): an extended request for meter values is accepted although nothing was measured.
* `Trig16.C172_zero_violated`: C172 (violated): an extended request for the meter values of all connectors is accepted, but only those of connector 0 are sent.
* `Req16.Reset.C173_late_violated`: C173 (violated): nor if the confirmation arrives before the transaction is marked as ended.
* `Req16.Reset.C173_lost_violated`: C173 (violated): it does not come either if the confirmation arrives after the thread looked for transactions, but before it fell asleep.
* `Req16.Reset.C173_offline_violated`: C173 (violated): the reset does not come when the last transaction ended, if the end is not confirmed by the CSMS (which may not be reachable), however often the thread gets to run.
* `Req16.C174_case_violated`: C174 (violated): vendor and message ids are case-insensitive in OCPP 1.6, but a function registered for them gets only messages in the same spelling.
* `Req16.C174_overridden_violated`: C174 (violated): if the function registered for a message answers that it does not know (the content of) it, the function for all messages is asked as well, and the answer of the first is lost.
* `Req16.C174_stuck_violated`: C174 (violated): a function that registers another one while it runs never returns.
* `Req16.C175_stuck_violated`: C175 (violated): an application that ends the transaction in the function it is asked with never gets out of it, and neither does the charge point.
* `Req16.C176_unknown_violated`: C176 (violated): the application is asked to reserve connectors that do not exist.
* `Conf16.C177_separator_violated`: C177 is violated: between the connector and the order of the phases any character is taken.
* `Conf16.C177_ten_violated`: C177 is violated: the order of the phases cannot be set for connectors from 10 on: only one digit is read.
* `Conf16.C178_violated`: C178 is violated: what follows the digits is not looked at.
* `Log.C179_copy_violated`: C179 is violated: a copy of a log, made by someone else, is taken for the oldest file, and deleted.
* `Log.C179_dated_violated`: C179 is violated: with dates as suffixes it is the newest of the rotated files that is deleted: "b" is lost, the older "a" is kept.
* `Log.C179_second_violated`: C179 is violated: two rotations within a second: the file of the first one is replaced, and no deletion is reported.
* `Log.C179_twelve_violated`: C179 is violated: with a limit of twelve files it is not the oldest file that is deleted: the oldest entry, "a", is kept, and the second one, "b", is lost.
* `Log.C179_unlimited_violated`: C179 is violated: without a limit for the number of files entries are lost, and no deletion is reported: `.10` is before `.9` in the order of texts, so `.9` is renamed to `.10` while there still is a file with this name.
* `Log.C180_violated`: C180 is violated: when there are more files than allowed, as after a change of the limit, their number does not decrease: only one file is deleted for each new one.
* `Log.C181_raw_violated`: C181 is violated: while a session is logged, a raw message is written twice to the log of the charging station, and not to that of the session.
* `Log.C181_sys_violated`: C181 is violated: while two sessions are logged, an event of the connection is written three times to the log of the charging station, and not to the logs of the sessions.
* `Log.C182_session_violated`: C182 is violated in the log of a session that starts after the call: the response has no type.
* `Log.C182_violated`: C182 is violated when the CSMS uses an id that a call of the charging station has: the response to the Heartbeat is logged as ResetResponse.
* `Log.C183_ampersand_violated`: C183 is violated by `&`: two different messages give the same page, and are both displayed as `<`.
* `Log.C183_raw_violated`: C183 is violated in the log of raw messages: the whole message is written as it is.
* `Log.C183_violated`: C183 is violated by the action of a message of the CSMS: it is written as it is, and what it has of tags becomes part of the page.
* `Log.C184_violated`: C184 is violated: in every log with as many files as allowed and one that is full, the next security event blocks for ever: the deletion of the oldest file is reported as a security event, which waits for the log in use. Such logs come about.
* `Log.C185_violated`: C185 is violated: for every number there is a history in which every call was answered, and as many elements are remembered.
* `Log.C186_violated`: C186 is violated when the process ends and starts again: entries follow the closing tags.
* `Fw2.C188_violated`: C188 is violated for statuses that the application reports without an id: the triggered notification has the id of an earlier update.
* `Fw2.C190_violated`: C190 is violated by a request that is refused while a signed update is running: the connectors become unavailable before the signature is verified, and not when it is.
* `Display.C192_dropped_violated`: C192 violated: the application does not learn on which display a message is to be shown, nor its further texts (in other languages): messages that differ in those alone are the same for it.
* `Display.C192_lists_violated`: C192 violated: a station that offers no display messages, and has no lists of priorities and formats for that reason, does not answer `Rejected`: the handler throws.
* `Display.C193_identifier_violated`: C193 violated: the identifier of a message is sent as a transaction id even if the application says that it is a session id or an id token.
* `Display.C193_left_violated`: C193 violated: messages the application has are not told to the management system; it is told that there are none.
* `Display.C193_long_violated`: C193 violated: one message with a too long text, and the request for the messages is not answered by the handler, whatever the other messages are.
* `Ocsp.C196_accepted_violated`: C196 violated: the second acceptance of the station ends the process. (It may well come: in the state `Pending` the CSMS triggers a BootNotification while the station's own repetition of it is queued, and accepts both.)
* `Ocsp.C196_answer_violated`: C196 violated: one answer with an unknown status to the request for a certificate's status, and the process ends: the exception leaves the updater's thread.
* `Ocsp.C197_violated`: C197 violated: when the CSMS delivers a V2G certificate while the station waits for the status of another one, the station does not read any more: neither the answer it waits for nor anything else, until the request times out; then the update has failed.
* `Cert16.C198_violated`: C198 violated: once the connection was lost, the station never checks its client certificate again, however long it runs, reconnected and whatever else happens, unless the CSMS accepts it anew; nor does it check its V2G certificate.
* `Cert16.C199_accepted_violated`: C199 violated: after the CSMS accepted the station, the interval that is configured has no effect at all: the OCSP cache is updated after 60 seconds and then every 12 hours.
* `Cert16.C199_violated`: C199 violated: whatever interval the CSMS sets, the second update comes 12 hours after the first one; so an interval, which must be a day at least, never has effect but once.
* `Tariff.C200_currency_violated`: C200 violated: if no currency is configured, an answer with a cost ends in an exception; the application gets no cost, and the answer's id token info is not looked at: a transaction the CSMS refuses goes on.
* `Tariff.C200_measurand_violated`: C200 violated: values without a measurand are of the energy imported (OCPP 2.0.1, 2.58 SampledValueType), but the cost is told without it.
* `Tariff.C201_extra_violated`: C201 violated: without costs the further messages are lost, whatever their languages are.
* `Tariff.C201_lost_violated`: C201 violated: with costs enabled, a personal message in an answer without a total cost is lost, though the application shows tariff messages.
* `Tariff.C202_currency_violated`: C202 violated: without a currency no cost message has any effect but an exception.
* `Tariff.C202_state_violated`: C202 violated: with California pricing, custom data without a state (such as that of another vendor) makes the station tell a state that was never assigned.
* `Cert2.C203_violated`: C203 violated: with OfflineThreshold 0 the timers are not set again after the connection was lost: an accepted station with security profile 3 that is connected again never checks a certificate, however long it stays connected.
* `Cert2.C204_violated`: C204 violated: with OfflineThreshold 0 (any time offline is too long) no status is sent after a reconnection, however long it took.
* `Conf16.C205_binary_violated`: C205 is violated: of a random key, whose bytes are not all printable characters, the hexadecimal notation is stored, as if it was the key.
* `Conf16.C205_plain_violated`: C205 is violated: texts that are not in hexadecimal notation are changed: one whose second character is not a digit, and one with an odd number of digits.
* `Conf16.C206_violated`: C206 is violated: an empty text, and a list that ends with a comma, are accepted for ConnectorEvseIds.
* `MQ.C207_violated`: C207 is violated: a message handed over with `push_call_async` is dropped by the next one; it is not queued any more and its future is never fulfilled, while the younger message is transmitted and answered.
* `Await.C208_violated`: C208 is violated in several ways: (1) a request that overflows the queue makes the waiting caller of an older one fail with an exception, for every function; (2) an answer with an unknown status makes DataTransfer of 1.6 throw, (3) one with a missing field makes Authorize of 2.x throw; (4) an answer that cannot be read is itself answered with a CALLERROR, and (5) the status of the EV certificate response is then not initialised; (6) functions of the OCSP updater wait without limit: here the message stays queued while the station is offline.
* `UserPrice.C210_violated_early`: C210 and C211 are violated by a price that arrives before the answer: the processing thread waits for the mutex that the authorization holds while it waits for the answer, which is behind the price. The authorization ends without an answer although the CSMS accepted the token, and the price is dropped.
* `UserPrice.C210_violated_same_token`: C210 is violated by overlapping authorizations of one token: undefined behaviour, or a price that was processed in time is lost.
* `UserPrice.C211_violated`: C211 is violated, always. Whenever the processing thread takes a SetUserPrice (for any token) while an authorization waits for the answer of the CSMS, then, whatever happens afterwards and whatever the CSMS answers, that authorization is still waiting, with no further message processed, or it has ended without an answer.
* `CertOps.C213_violated`: C213 violated. A request that names OEMRootCertificate among other types is not answered with the certificates of the other types (nor 'NotFound') but with a CALLERROR, whatever is installed. Through DataTransfer of 1.6, a request that names no type, which asks for all, is answered 'NotFound' by a module that returns certificates only of the types it is asked for.
* `Keys.C217_violated`: C217 violated. The order of the items is not an order: with three instances "A", "Z", "a" of one component there are items each of which is before the next, in a circle. The standard library requires a strict weak order, without which the behaviour is undefined. And two items for the instances "A" and "a" of a component, which are two components for the device model, get one result.
* `Keys.C218_violated`: C218 violated. Names of components and variables are case-insensitive in OCPP. A request that writes a name of the device model with other letters does not find the variable, whatever else is in the device model, unless it is there under this name too.
* `Effects.C219_violated`: C219 violated. If a request names HeartbeatInterval twice, both values are accepted and the last one is in the device model, but the heartbeats have the first one. If it sets the Target of the password and then the password, the connection keeps the old password.
* `Effects.C220_violated`: C220 violated. If the application chose an interface when the connection was opened, a change of the interval of the pings (or of another of these options) makes the station forget it: the next connection is opened on the interface of the device model, or any.
* `CompReq.C221_unknown_unit_violated`: C221 (violated). If the list of units contains another name, a request for a composite schedule ends with an exception.
* `CompReq.C222_enhanced_violated`: C222 (1.6, violated). Once its BootNotification was accepted, the enhanced schedules of a station ignore no purpose while it is offline: whatever happens to the connection, they are those of a station without IgnoredProfilePurposesOffline. There is a station that is offline, is to ignore TxDefaultProfiles, and still gives 16 A of a TxDefaultProfile instead of the default.
* `CompReq.C222_pending_violated`: C222 (1.6, violated). Before its BootNotification is accepted the enhanced schedules of a connected station ignore the purposes that are to be ignored only while offline.
* `Req2.C224_empty_violated`: C224 is violated: contrary to its documentation (`include/ocpp/v2/device_model.hpp` l.157) the check lets empty values pass: all controllers here have an empty string for a value, except for the versions.
* `Req2.C224_v2x_violated`: C224 is violated: whether V2X is available at *any* EVSE decides whether the V2X controller of an EVSE must be described, so a charging station with a complete device model does not start (`device_model.cpp` l.603-609).
* `Req2.C224_versions_violated`: C224 is violated: a station that lists only `ocpp1.6` for its 2.x device model starts although every other required variable is missing, and a version written with a space before it is not seen, so that a station that lists only such a version is refused.
* `Req2.C225_violated`: C225 is violated: a controller that is made available later needs variables nobody checks then, for example by SetVariables of the CSMS when `Available` can be written.
* `AvailDm.C227_violated`: C227 fails after a short loss of the connection: the status that was last reported came back, so nothing is reported and the device model is not written either. It keeps the status of the meantime: online, with the connector Available and reported so, the device model says Occupied.
* `AvailDm.C228_station_violated`: C228 fails for the station: it is Inoperative and all its connectors are Unavailable, the device model says Available.
* `AvailDm.C228_violated`: C228 fails for an EVSE with two connectors: the status written last wins. A vehicle is connected and the EVSE is in use, but the device model says that it is Available.
* `PS.C230_dc_violated`: C230 (violated, DC and OCPP 2.1). At the start the version is not agreed yet, so that a profile with a number of phases that OCPP 2.1 allows for this EVSE is removed.
* `PS.C230_external_violated`: C230 (violated, external constraints). No limit of an external system survives a restart: its own row counts as a conflict.
* `PS.C230_single_phase_violated`: C230 (violated, single phase). An accepted profile without a number of phases was stored with three, and is removed from a single-phase station.
* `Sock.C231_violated`: C231 (violated). A callback starts the connection again, as for a new AuthorizationKey: the old receiving thread goes on beside the new one. Two callbacks run at the same time, and messages are handled in another order.
* `Sock.C232_violated`: C232 (violated). The connection is lost just after the thread found a message: it takes the first element of a queue that has been cleared, which is undefined behaviour. No callback starts the connection again.
* `Sock.C234_violated`: C234 (violated). The flag is set and the thread notified just after it has tested the flag and before it sleeps: the notification is lost, the thread sleeps for ever, and the destructor does not return.
* `Met.C235_context_violated`: C235 violated: if the application reports values without context, or in the context Trigger, nothing is sent although the interval has passed.
* `Met.C236_before_violated`: C236 violated: the values of the end can have one from before the start of the transaction: the additional reading is the last value measured, here 40 s before the start, with its time.
* `Met.C236_catch_up_violated`: C236 violated: the start of a transaction is reported 36 s late, after a clock-aligned instant (60 s), with RoundClockAlignedTimestamps. The additional reading gets the time of the *next* instant (120 s); the reading at that instant is then dropped: the values of the end have the voltage before the start (220 V) for 120 s although it was 230 V.
* `Met.C236_leak_violated`: C236 violated: without ResumeTransactionsOnBoot the readings of a transaction that was cut off by a restart stay in the database for good: nothing reads or deletes them; whatever happens afterwards, unless the id is used again.
* `Blocks.C238_connection_violated`: C238 fails: the function for the state of the connection is not checked; a station is constructed with an empty one, and throws as soon as it connects.
* `Blocks.C238_needs_violated`: C238 fails: without smart charging, the needs of a vehicle reported by the application, and a RequestStartTransaction with a TxProfile while SmartChargingCtrlr is enabled, use the part that does not exist.
* `Blocks.C238_smart_violated`: C238 fails: on every station without smart charging – which can be constructed with all functions given – each end of a transaction uses the part for smart charging, which does not exist: undefined behaviour. A reset that waits for the end of the transaction is not carried out.
* `Blocks.C239_tariff_violated`: C239 fails for tariffs: an application that offers tariffs, and no display messages, is refused for want of the function for display messages, although such a station would never call it; and one without the function to which tariffs are passed is accepted, though then no tariff reaches the application, whatever happens.
* `Blocks.C240_log_violated`: C240 fails: without the function that uploads logs, every GetLog is answered with a status that was never set; nothing else is.
* `Blocks.C240_twice_violated`: C240 fails: without the function that takes tokens, every RemoteStartTransaction that is accepted is answered twice, first Accepted and then with an error; likewise RemoteStopTransaction without the function that stops transactions. Without the function that pauses charging, the application is not told that the CSMS refused the token of a running transaction.
* `Sock.C243_violated`: C243 (violated). Without verification of the name, a server whose certificate is refused (here: it has expired, or its root is not installed) is not reported as one with an invalid certificate, so that no security event is sent either.
* `Sock.C244_violated`: C244 (violated). With a security profile that uses TLS, the TLS contexts that were made and not freed grow with every attempt while the roots of the CSMS cannot be loaded (or another step of the preparation fails): there is no bound.
* `MQ.C246_power_violated`: C246 fails with a power cut: it falls between the writing of the next sequence number and the writing of the event into the database of the queue. The station comes up again with the transaction, and the CSMS receives 0 and 2: the event with number 1 was never transmitted and is gone, although nothing was dropped or given up.
* `PubKeys.C250_case_violated`: C250 violated: other keys are found in any spelling, the key of a meter is not: `meterPublicKey[1]` is unknown.
* `PubKeys.C250_disk_violated`: C250 violated: the function answers true although the key cannot be written to the file; the key is lost at the next start.
* `PubKeys.C250_full_violated`: C250 violated: without space for the file the function answers true as well, and the station does not start again.
* `PubKeys.C250_long_violated`: C250 violated: a public key of 501 characters is accepted for a station with one connector; from then on, also after a start, GetConfiguration without keys is answered with a CALLERROR (and an InvalidMessages event), so no configuration key is reported.
* `PubKeys.C250_short_violated`: C250 violated: if the configuration of the application has fewer keys than connectors, the key of a further connector is refused.
* `Locks.C251_close_violated`: C251 is violated (1.6 and 2.x): `close`, `reconnect` and `start_connecting` wait, with the mutex of the connection held, for the thread that receives messages. If that thread is handling a message after which the connection is made anew (AuthorizationKey, BasicAuthPassword, CertificateSigned), it waits for this mutex, and there is never a connection again.
* `Locks.C251_register_violated`: C251 is violated (1.6): callbacks for DataTransfer.req are called with the mutex of the table of callbacks held; if one of them registers another, the thread that receives messages waits for itself for ever.
* `Locks.C251_reset_violated`: C251 is violated (1.6): the callback for a reset, in which `stop` is to be called according to the comment, is called with the mutex for the stopping of transactions held. `stop` waits for the thread that receives messages; if that handles UnlockConnector.req, it waits for this mutex, and the station never restarts.
* `Locks.C251_unlock_violated`: C251 is violated (1.6): UnlockConnector.req is handled with the mutex for the stopping of transactions held, also while the application is asked to stop the transaction; if it does so in that callback (`on_transaction_stopped`), the thread that receives messages waits for itself for ever.
* `Eff16.C252_boot_violated`: C252 does not hold in general: the answer Pending with an interval of 300 seconds to a BootNotification of a registered station (after TriggerMessage) changes HeartbeatInterval of the configuration, but not the timer (impl l.1670-1672, l.1680-1735).
* `Eff16.C252_ping_violated`: C252 does not hold in general: after an accepted change of WebSocketPingInterval the next connection begins with pings at the old interval (the options of the connection are read again only after the timer for the pings was started, impl l.297-318).
* `Eff16.C252_resumed_violated`: C252 does not hold in general: a transaction that is resumed after a restart has no timer for meter values (impl l.519-523 passes a null pointer). No sampled meter values are taken for it, although the configuration has an interval, and an accepted change of the interval makes the process crash.
* `Eff16.C253_display_violated`: C253 does not hold in general: with CustomDisplayCostAndPrice false a restart before the configured time stops the timer (impl l.234), although the change of the date was accepted and the timer ran before the restart.
* `Eff16.C253_off_violated`: C253 does not hold in general: a station that is off when the configured time comes does not apply the new offset when it starts again (impl l.3450-3453: a date in the past is ignored).
* `MQ.C256_violated`: C256 is violated: the list names Heartbeat and StatusNotification with a blank after the comma and then MeterValues; the MeterValues are queued although they are named (so is the StatusNotification, whose name has a blank before it).
* `Log.Formats.C258_violated`: OCPP 2.x, in contrast to 1.6: with logs of sessions only, all messages are also written to a log in text, which the setting does not name.
* `MQ.Stopping.C259_restart_violated`: OCPP 2.x, where the queue is not made again: a station that was stopped and is started again sends nothing, whatever is put into the queue: the new worker ends at its first turn.
* `MQ.Stopping.C259_violated`: The worker has found nothing to do and is about to block while `stop` clears `running` and notifies: the worker then blocks, and without another notification `stop` does not return, however many turns both get and whatever is put into the queue.
* `Auth.C260_violated`: A token that was cached in one spelling and is erased in the other, which OCPP does not distinguish: the station still tells about it, and accepts it from the cache without a request.
* `Met16.Texts.C262_violated`: C262 fails. A list that names a measurand twice is accepted; the total of a measurand with phases is then asked for twice, so that every MeterValues.req has the same reading twice.

Further observations made while reading, not turned into theorems: the sources of a GetChargingProfiles
criterion are concatenated into SQL text; `PriorityCharging` profiles are accepted but never used in a
composite schedule; only the first schedule of a profile is used; in OCPP 1.6
`TransactionHandler::get_authorized_id_tag` never returns a tag, so that StopTransaction.conf never updates
the authorization cache.
