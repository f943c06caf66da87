{
 "claims": [
  {
   "property": "C01",
   "status": "proved",
   "theorems": [
    "Verif.MQ.C01_transaction_order",
    "Verif.MQ.C01_only_pending"
   ],
   "note": ""
  },
  {
   "property": "C02",
   "status": "partial",
   "theorems": [
    "Verif.MQ.C02_single_outstanding",
    "Verif.MQ.C02_network_partial",
    "Verif.MQ.C02_violated_by_race"
   ],
   "note": "Proved for all histories that the queue never sends while it still regards a CALL as outstanding, and, seen from the network, for histories in which the timer callback and CALLERROR handling are not delayed; false in the network view under the delayed-callback race (negation proved)."
  },
  {
   "property": "C03",
   "status": "proved",
   "theorems": [
    "Verif.MQ.C03_pending_held",
    "Verif.MQ.C03_restart",
    "Verif.MQ.C03_crash_anywhere",
    "Verif.MQ.C03_numbers",
    "Verif.MQ.C03_reasons"
   ],
   "note": ""
  },
  {
   "property": "C04",
   "status": "proved",
   "theorems": [
    "Verif.MQ.C04_transmissions_bounded",
    "Verif.MQ.C04_others_once"
   ],
   "note": ""
  },
  {
   "property": "C05",
   "status": "partial",
   "theorems": [
    "Verif.MQ.C05_violated",
    "Verif.MQ.C05_given_up_partial"
   ],
   "note": "The full claim is false of the code: negation proved with a witness; partial theorem for histories without failed sends."
  },
  {
   "property": "C06",
   "status": "proved",
   "theorems": [
    "Verif.MQ.C06_bounded",
    "Verif.MQ.C06_keeps_essential",
    "Verif.MQ.C06_evicts_updates_only",
    "Verif.MQ.C06_no_neighbours"
   ],
   "note": ""
  },
  {
   "property": "C07",
   "status": "partial",
   "theorems": [
    "Verif.MQ.C07_violated",
    "Verif.MQ.C07_promise_once_partial",
    "Verif.MQ.C07_observed_once"
   ],
   "note": "The full claim is false of the code: negation proved with a witness; partial theorem for histories in which no send fails for a normal message behind the front of its queue."
  },
  {
   "property": "C08",
   "status": "proved",
   "theorems": [
    "Verif.MQ.C08_silent_until_accepted"
   ],
   "note": ""
  },
  {
   "property": "C09",
   "status": "proved",
   "theorems": [
    "Verif.MQ.C09_foreign_result",
    "Verif.MQ.C09_foreign_error",
    "Verif.MQ.C09_matching_result"
   ],
   "note": ""
  },
  {
   "property": "C10",
   "status": "partial",
   "theorems": [
    "Verif.MQ.C10_violated",
    "Verif.MQ.C10_reply_first_partial"
   ],
   "note": "The full claim is false of the code: negation proved with a witness; partial theorem for histories without an answer received between request and reply."
  },
  {
   "property": "C100",
   "status": "partial",
   "theorems": [
    "Verif.Rem.C100_partial",
    "Verif.Rem.C100_violated"
   ],
   "note": "All messages; CALLRESULTs and CALLERRORs are answered with CALLERROR."
  },
  {
   "property": "C101",
   "status": "proved",
   "theorems": [
    "Verif.Met.C101"
   ],
   "note": "All lists of values and configurations."
  },
  {
   "property": "C102",
   "status": "partial",
   "theorems": [
    "Verif.Met.C102_partial",
    "Verif.Met.C102_violated"
   ],
   "note": "All histories; the unit is ignored (negation proved). Sums of floats are exact rationals."
  },
  {
   "property": "C103",
   "status": "proved",
   "theorems": [
    "Verif.Met.C103",
    "Verif.Met.C103_once",
    "Verif.Met.C103_kept"
   ],
   "note": "All stations."
  },
  {
   "property": "C104",
   "status": "partial",
   "theorems": [
    "Verif.Met.C104_energy",
    "Verif.Met.C104_energy_once",
    "Verif.Met.C104_power_partial",
    "Verif.Met.C104_power_first",
    "Verif.Met.C104_equal_violated",
    "Verif.Met.C104_unit_violated"
   ],
   "note": "All sequences of meter values; fails if the last power was exactly the threshold, and for powers not in W (negations proved)."
  },
  {
   "property": "C105",
   "status": "partial",
   "theorems": [
    "Verif.Met.C105_partial",
    "Verif.Met.C105_history_partial",
    "Verif.Met.C105_violated",
    "Verif.Met.C105_restart_violated"
   ],
   "note": "All histories of readings and refusals; without a register value at the start, and after a restart, nothing is checked (negations proved)."
  },
  {
   "property": "C106",
   "status": "partial",
   "theorems": [
    "Verif.Wire.C106_partial",
    "Verif.Wire.C106_keys",
    "Verif.Wire.C106_violated"
   ],
   "note": "356 structs, all values at any depth; DisplayMessageContent is not read as written (negation proved); structs with one conversion only (RunningCost, TriggerMeterValue) and RunningCostIdlePrice are not modelled. Decimals are rationals."
  },
  {
   "property": "C107",
   "status": "partial",
   "theorems": [
    "Verif.Wire.C107_partial",
    "Verif.Wire.C107_required",
    "Verif.Wire.C107_unknown",
    "Verif.Wire.C107_violated"
   ],
   "note": "All JSON values; numbers that do not fit are converted instead of refused (negation proved)."
  },
  {
   "property": "C108",
   "status": "partial",
   "theorems": [
    "Verif.Wire.C108",
    "Verif.Wire.C108_distinct",
    "Verif.Wire.C108_offset",
    "Verif.Wire.C108_violated"
   ],
   "note": "All times of the years 0000-9999; what follows the time in a text is not checked (negation proved). The date library is modelled from its documentation, without leap seconds."
  },
  {
   "property": "C109",
   "status": "partial",
   "theorems": [
    "Verif.Auth16.C109_partial",
    "Verif.Auth16.C109_sound_partial",
    "Verif.Auth16.C109_list_decides",
    "Verif.Auth16.C109_cache_decides",
    "Verif.Auth16.C109_asked",
    "Verif.Auth16.C109_local_only",
    "Verif.Auth16.C109_defined_partial",
    "Verif.Auth16.C109_reachable_unique",
    "Verif.Auth16.C109_disabled_cache_violated",
    "Verif.Auth16.C109_blocked_offline_violated",
    "Verif.Auth16.C109_blocked_in_list_violated",
    "Verif.Auth16.C109_case_violated",
    "Verif.Auth16.C109_database_error_violated",
    "Verif.Auth16.C109_no_websocket_violated"
   ],
   "note": "False of the code: the switch of the cache is ignored, tags known as blocked count as unknown offline, tags are compared with regard to case, and two cases of undefined behaviour (negations proved). Proved for the remaining cases, all configurations and tables."
  },
  {
   "property": "C11",
   "status": "partial",
   "theorems": [
    "Verif.MQ.C11_violated",
    "Verif.MQ.C11_no_null_partial"
   ],
   "note": "The full claim is false of the code under a race: negation proved with a witness; partial theorem for schedules in which expiry and handling are not separated."
  },
  {
   "property": "C110",
   "status": "partial",
   "theorems": [
    "Verif.Auth16.C110_partial",
    "Verif.Auth16.C110_clear",
    "Verif.Auth16.C110_violated"
   ],
   "note": "False of the code: StopTransaction.conf never updates the cache (negation proved). Proved for all histories without it in which the statements that store answers do not fail."
  },
  {
   "property": "C111",
   "status": "partial",
   "theorems": [
    "Verif.Auth16.C111_answer",
    "Verif.Auth16.C111_refused_unchanged",
    "Verif.Auth16.C111_full",
    "Verif.Auth16.C111_differential",
    "Verif.Auth16.C111_reported",
    "Verif.Auth16.C111_version_present",
    "Verif.Auth16.C111_violated",
    "Verif.Auth16.C111_length_violated",
    "Verif.Auth16.C111_database_error_violated"
   ],
   "note": "Proved for all requests when no statement fails; false of the code: the version reported for an empty list, the maximum length, failing statements (negations proved)."
  },
  {
   "property": "C112",
   "status": "partial",
   "theorems": [
    "Verif.Auth16.C112_partial",
    "Verif.Auth16.C112_violated"
   ],
   "note": "False of the code (negation proved); proved what a power cut during a differential update leaves."
  },
  {
   "property": "C113",
   "status": "partial",
   "theorems": [
    "Verif.Auth16.C113_justified",
    "Verif.Auth16.C113_certificate",
    "Verif.Auth16.C113_online",
    "Verif.Auth16.C113_no_websocket_violated"
   ],
   "note": "Proved for all inputs; a null pointer is dereferenced before the websocket exists (negation proved). As in C109 the cache need only be configured."
  },
  {
   "property": "C114",
   "status": "partial",
   "theorems": [
    "Verif.Tx16.C114_partial",
    "Verif.Tx16.C114_violated"
   ],
   "note": "Proved for all histories in which the station does not crash while an offline StopTransaction without the id of the CSMS is queued, and StartTransaction.conf is not handled just during the stop; false of the code otherwise (negation proved)."
  },
  {
   "property": "C115",
   "status": "partial",
   "theorems": [
    "Verif.Tx16.C115_partial",
    "Verif.Tx16.C115_violated",
    "Verif.Tx16.C115_race_violated"
   ],
   "note": "As C114: false of the code after a crash and in a race (negations proved); proved for all other histories."
  },
  {
   "property": "C116",
   "status": "proved",
   "theorems": [
    "Verif.Tx16.C116_stops",
    "Verif.Tx16.C116_resumed",
    "Verif.Tx16.C116_measured",
    "Verif.Tx16.C116_measured_kept"
   ],
   "note": "Ids of unacknowledged rows are assumed distinct where needed."
  },
  {
   "property": "C117",
   "status": "partial",
   "theorems": [
    "Verif.Tx16.C117_partial",
    "Verif.Tx16.C117_violated"
   ],
   "note": "False of the code after a restart with a resumed transaction (negation proved): null pointer. Proved for all histories without one."
  },
  {
   "property": "C118",
   "status": "proved",
   "theorems": [
    "Verif.Tx16.C118_remote_stop",
    "Verif.Tx16.C118_assigned"
   ],
   "note": "Assumed of the application: it starts sessions as the API asks (Sane), and after a restart it resumes on a connector only the last transaction that was not acknowledged (ResumesLast)."
  },
  {
   "property": "C119",
   "status": "partial",
   "theorems": [
    "Verif.Tx16.C119_partial",
    "Verif.Tx16.C119_violated"
   ],
   "note": "False of the code if the station crashes between the insertion of the row and the queueing of StartTransaction (negation proved); proved for all other histories without given up messages."
  },
  {
   "property": "C12",
   "status": "partial",
   "theorems": [
    "Verif.MQ.C12_violated",
    "Verif.MQ.C12_violated_timer",
    "Verif.MQ.C12_no_lost_wakeup_partial"
   ],
   "note": "The full claim is false of the code: two negations proved; partial theorem for never-attempted, unstalled messages."
  },
  {
   "property": "C120",
   "status": "partial",
   "theorems": [
    "Verif.Prof16.C120_answer",
    "Verif.Prof16.C120_refused",
    "Verif.Prof16.C120_installed",
    "Verif.Prof16.C120_in_effect",
    "Verif.Prof16.C120_remote",
    "Verif.Prof16.C120_full_violated"
   ],
   "note": "Proved for all reachable stores and requests; false of the code: a replacement is refused when the store is full (negation proved)."
  },
  {
   "property": "C121",
   "status": "partial",
   "theorems": [
    "Verif.Prof16.C121_cleared",
    "Verif.Prof16.C121_not_back",
    "Verif.Prof16.C121_partial",
    "Verif.Prof16.C121_violated"
   ],
   "note": "Proved; false of the code only for clearing a TxDefaultProfile of connector 0 by connector 0 (negation proved)."
  },
  {
   "property": "C122",
   "status": "partial",
   "theorems": [
    "Verif.Prof16.C122_partial",
    "Verif.Prof16.C122_no_more",
    "Verif.Prof16.C122_violated",
    "Verif.Prof16.C122_copies_violated"
   ],
   "note": "False of the code: the database keeps one profile for each purpose and stack level whatever the connector, and one row for all copies (negations proved). Proved for all other histories; that nothing comes back that was not installed is proved for all histories."
  },
  {
   "property": "C123",
   "status": "partial",
   "theorems": [
    "Verif.Prof16.C123_partial",
    "Verif.Prof16.C123_violated"
   ],
   "note": "False of the code (negation proved): a profile for connector 0 counts for each connector. Proved: below the maximum plus the number of connectors."
  },
  {
   "property": "C124",
   "status": "proved",
   "theorems": [
    "Verif.Prof16.C124_expired"
   ],
   "note": ""
  },
  {
   "property": "C125",
   "status": "partial",
   "theorems": [
    "Verif.Prof16.C125_matching",
    "Verif.Prof16.C125_running",
    "Verif.Prof16.C125_ended",
    "Verif.Prof16.C125_violated",
    "Verif.Prof16.C125_resumed_violated"
   ],
   "note": "Proved for profiles with transaction id and for the end of transactions; false of the code for profiles of RemoteStartTransaction and resumed transactions (negations proved)."
  },
  {
   "property": "C126",
   "status": "partial",
   "theorems": [
    "Verif.Boot.C126_partial",
    "Verif.Boot.C126_overflow_violated",
    "Verif.Boot.C126_send_violated",
    "Verif.Boot.C126_giveup_violated",
    "Verif.Boot.C126_race_violated",
    "Verif.Boot.C126_wait",
    "Verif.Boot.C126_accepted_only"
   ],
   "note": "False of the code: the BootNotification is lost when the queue is full, when its transmission fails, with QueueAllMessages, and (1.6) when the answer is faster than the notice of the connection (negations proved). Proved for all histories without these; the waiting time and which answers count are proved without them."
  },
  {
   "property": "C127",
   "status": "partial",
   "theorems": [
    "Verif.Boot.C127_partial",
    "Verif.Boot.C127_restart_violated",
    "Verif.Boot.C127_early_violated"
   ],
   "note": "False of OCPP 1.6 after stop and restart by the application (negations proved, for all histories afterwards); proved for the histories of C126. That nothing is sent early after a new start of the process is C08."
  },
  {
   "property": "C128",
   "status": "partial",
   "theorems": [
    "Verif.Boot.C128_partial",
    "Verif.Boot.C128_zero_violated",
    "Verif.Boot.C128_retry_violated",
    "Verif.Boot.C128_before",
    "Verif.Boot.C128_early_violated"
   ],
   "note": "Proved for all histories without restart by the application (1.6) and answers Accepted with interval 0 (2.x); false of the code otherwise (negations proved); in 1.6 the waiting time of other answers becomes the interval (negation proved)."
  },
  {
   "property": "C129",
   "status": "partial",
   "theorems": [
    "Verif.Boot.C129_v16",
    "Verif.Boot.C129_boot_answer",
    "Verif.Boot.C129_v2_partial",
    "Verif.Boot.C129_answer_violated"
   ],
   "note": "Proved; false of the code: in 2.x answers of the CSMS are themselves answered with a CALLERROR before the station is accepted (negation proved)."
  },
  {
   "property": "C13",
   "status": "proved",
   "theorems": [
    "Verif.MQ.C13_pause_silences",
    "Verif.MQ.C13_stale_callback"
   ],
   "note": ""
  },
  {
   "property": "C130",
   "status": "partial",
   "theorems": [
    "Verif.Conf16.C130_partial",
    "Verif.Conf16.C130_unreadable_violated"
   ],
   "note": "Proved for all configurations, keys and values when the file with the changes is readable; false of the code otherwise (negation proved)."
  },
  {
   "property": "C131",
   "status": "partial",
   "theorems": [
    "Verif.Conf16.C131_partial",
    "Verif.Conf16.C131_language",
    "Verif.Conf16.C131_restart_partial",
    "Verif.Conf16.C131_write_violated",
    "Verif.Conf16.C131_full_violated",
    "Verif.Conf16.C131_crash_violated"
   ],
   "note": "Proved for all keys of the table, values and histories in which the file can be written; false of the code when writing fails or the process ends while the application sets its identity (negations proved)."
  },
  {
   "property": "C132",
   "status": "partial",
   "theorems": [
    "Verif.Conf16.C132_partial",
    "Verif.Conf16.C132_auth_violated",
    "Verif.Conf16.C132_told_violated"
   ],
   "note": "Proved for all standard keys and spellings; false of the code for AuthorizationKey and for the callbacks of the application (negations proved)."
  },
  {
   "property": "C133",
   "status": "partial",
   "theorems": [
    "Verif.Conf16.C133_partial",
    "Verif.Conf16.C133_bool_violated",
    "Verif.Conf16.C133_loose_violated"
   ],
   "note": "Proved for all keys but the 15 of two explicit lists and texts in ASCII; false of the code for these (negations proved)."
  },
  {
   "property": "C134",
   "status": "partial",
   "theorems": [
    "Verif.Conf16.C134_partial",
    "Verif.Conf16.C134_auth_violated",
    "Verif.Conf16.C134_values_violated"
   ],
   "note": "Proved for all histories with texts within the limits of the schemas; false of the code: six accepted requests after which the station cannot start (negations proved)."
  },
  {
   "property": "C135",
   "status": "partial",
   "theorems": [
    "Verif.Conf16.C135_partial",
    "Verif.Conf16.C135_language",
    "Verif.Conf16.C135_secret",
    "Verif.Conf16.C135_all_partial",
    "Verif.Conf16.C135_long_violated"
   ],
   "note": "Proved; no answer is given when a value is longer than 500 bytes, which an accepted DefaultPrice can cause (negation proved)."
  },
  {
   "property": "C136",
   "status": "partial",
   "theorems": [
    "Verif.Conf16.C136_partial",
    "Verif.Conf16.C136_violated"
   ],
   "note": "Proved for all standard keys but four; false of the code for the three keys of the reconnection, for all values (negation proved)."
  },
  {
   "property": "C137",
   "status": "partial",
   "theorems": [
    "Verif.Conf16.C137_partial",
    "Verif.Conf16.C137_monotone_partial",
    "Verif.Conf16.C137_text_violated",
    "Verif.Conf16.C137_restart_violated",
    "Verif.Conf16.C137_back_violated",
    "Verif.Conf16.C137_write_violated"
   ],
   "note": "The decision is proved for all integers, the bound for all histories in which the file can be written; false of the code: texts that only begin with an integer, switches kept after a restart or taken up again by stop, failing writes (negations proved)."
  },
  {
   "property": "C138",
   "status": "partial",
   "theorems": [
    "Verif.Recv.C138_16_partial",
    "Verif.Recv.C138_2_partial",
    "Verif.Recv.C138_16_result",
    "Verif.Recv.C138_16_refused",
    "Verif.Recv.C138_2_result",
    "Verif.Recv.C138_violated",
    "Verif.Recv.C138_unknown_violated"
   ],
   "note": "Proved for all requests the standard knows; false of the code for UnlockConnector with a connector that does not exist, and for unknown actions, which are answered with another id (negations proved)."
  },
  {
   "property": "C139",
   "status": "partial",
   "theorems": [
    "Verif.Recv.C139_16",
    "Verif.Recv.C139_2_partial",
    "Verif.Recv.C139_2_pending_partial",
    "Verif.Recv.C139_violated"
   ],
   "note": "Proved for 1.6, and for 2.x with an accepted registration; false of the code for 2.x with a pending one (negation proved)."
  },
  {
   "property": "C14",
   "status": "proved",
   "theorems": [
    "Verif.MQ.C14_registered_id",
    "Verif.MQ.C14_others_unchanged",
    "Verif.MQ.C14_meter_values"
   ],
   "note": ""
  },
  {
   "property": "C140",
   "status": "partial",
   "theorems": [
    "Verif.Recv.C140_16_partial",
    "Verif.Recv.C140_2_partial",
    "Verif.Recv.C140_violated",
    "Verif.Recv.C140_2_violated"
   ],
   "note": "Proved for all sequences of messages without names of responses as actions; false of the code for these, for messages handled when disconnected, and for NotifyAllowedEnergyTransfer with OCPP 2.0.1 (negations proved)."
  },
  {
   "property": "C141",
   "status": "partial",
   "theorems": [
    "Verif.Recv.C141_16_partial",
    "Verif.Recv.C141_2_partial",
    "Verif.Recv.C141_16_violated",
    "Verif.Recv.C141_violated"
   ],
   "note": "Proved but for a second reset (1.6), failures of the database and of the application and numbers outside of int (2.x); false of the code for these (negations proved for the reset and the numbers)."
  },
  {
   "property": "C142",
   "status": "partial",
   "theorems": [
    "Verif.InitDb.C142_value_survives_partial",
    "Verif.InitDb.C142_monitor_survives_partial",
    "Verif.InitDb.C142_value_survives_violated"
   ],
   "note": "Proved for all histories with configurations in order; false of the code for an instance that is the empty text (negation proved)."
  },
  {
   "property": "C143",
   "status": "partial",
   "theorems": [
    "Verif.InitDb.C143_mirrors_partial",
    "Verif.InitDb.C143_custom_wins",
    "Verif.InitDb.C143_mirrors_violated"
   ],
   "note": "Proved for configurations in order, up to case and 2^-23; false of the code for variables without attributes, changes of case, of the source and tiny changes of monitors (negations proved)."
  },
  {
   "property": "C144",
   "status": "partial",
   "theorems": [
    "Verif.InitDb.C144_configured_value_partial",
    "Verif.InitDb.C144_default_value_partial",
    "Verif.InitDb.C144_default_value_violated"
   ],
   "note": "Proved for explicit values, and for default values of new attributes or attributes with a value; false of the code for defaults added later, values taken out and changes of case (negations proved)."
  },
  {
   "property": "C145",
   "status": "partial",
   "theorems": [
    "Verif.InitDb.C145_bad_value_refused",
    "Verif.InitDb.C145_good_configuration_accepted",
    "Verif.InitDb.C145_failure_unchanged_partial",
    "Verif.InitDb.C145_failure_violated"
   ],
   "note": "Refusal and acceptance proved; a failing start keeps the database if no component is to be removed; otherwise false of the code (negation proved)."
  },
  {
   "property": "C146",
   "status": "partial",
   "theorems": [
    "Verif.InitDb.C146_interrupted_partial",
    "Verif.InitDb.C146_interrupted_violated"
   ],
   "note": "Proved for all sequences of interruptions but one that leaves a file without schema, after which no start succeeds (negation proved)."
  },
  {
   "property": "C147",
   "status": "partial",
   "theorems": [
    "Verif.InitDb.C147_idempotent_partial",
    "Verif.InitDb.C147_idempotent_violated"
   ],
   "note": "Proved for configurations in order without constant or not persistent attributes; false of the code for variables without attributes and for the flags (negations proved)."
  },
  {
   "property": "C148",
   "status": "proved",
   "theorems": [
    "Verif.Sock.C148_header",
    "Verif.Sock.C148_round_trip",
    "Verif.Sock.C148_distinct",
    "Verif.Sock.C148_stops"
   ],
   "note": "Proved for all identities, keys and profiles."
  },
  {
   "property": "C149",
   "status": "proved",
   "theorems": [
    "Verif.Sock.C149_tls",
    "Verif.Sock.C149_mismatch"
   ],
   "note": "Proved for all strings and integers."
  },
  {
   "property": "C15",
   "status": "proved",
   "theorems": [
    "Verif.SC16.C15_highest_stack_level"
   ],
   "note": "For profiles whose periods are in order (the code skips other periods); any sort by stack level."
  },
  {
   "property": "C150",
   "status": "partial",
   "theorems": [
    "Verif.Sock.C150_target_partial",
    "Verif.Sock.C150_violated",
    "Verif.Sock.C150_malformed_violated"
   ],
   "note": "Proved for all well-formed addresses that do not end with the identity and a slash; for those, and for some malformed addresses, false of the code (negations proved)."
  },
  {
   "property": "C151",
   "status": "partial",
   "theorems": [
    "Verif.Sock.C151_refusal_partial",
    "Verif.Sock.C151_violated"
   ],
   "note": "Proved for all strings without twenty digits in a row; false of the code otherwise (negation proved)."
  },
  {
   "property": "C152",
   "status": "partial",
   "theorems": [
    "Verif.Sock.C152_string_partial",
    "Verif.Sock.C152_violated"
   ],
   "note": "Proved for hosts without colon; false of the code for IPv6 addresses (negation proved)."
  },
  {
   "property": "C153",
   "status": "partial",
   "theorems": [
    "Verif.Sock.C153_delay_partial",
    "Verif.Sock.C153_constant_partial",
    "Verif.Sock.C153_violated"
   ],
   "note": "Proved for settings whose longest waiting time fits into 31 bits; others overflow (negation proved)."
  },
  {
   "property": "C154",
   "status": "partial",
   "theorems": [
    "Verif.Sock.C154_give_up_partial",
    "Verif.Sock.C154_unlimited_partial",
    "Verif.Sock.C154_count_partial",
    "Verif.Sock.C154_violated"
   ],
   "note": "Proved: a limit of n gives n+1 attempts, no limit never gives up; one attempt more than the setting says (negation proved)."
  },
  {
   "property": "C155",
   "status": "proved",
   "theorems": [
    "Verif.Sock.C155_reports"
   ],
   "note": "Proved for all histories and settings."
  },
  {
   "property": "C156",
   "status": "proved",
   "theorems": [
    "Verif.Sock.C156_detected"
   ],
   "note": "Proved for all histories."
  },
  {
   "property": "C157",
   "status": "partial",
   "theorems": [
    "Verif.Sock.C157_no_false_alarm_partial",
    "Verif.Sock.C157_violated",
    "Verif.Sock.C157_payload_violated"
   ],
   "note": "Proved if no connection is lost with an unanswered ping; otherwise, and for empty payloads, false of the code (negations proved)."
  },
  {
   "property": "C158",
   "status": "partial",
   "theorems": [
    "Verif.Sock.C158_keeps_trying_partial",
    "Verif.Sock.C158_violated",
    "Verif.Sock.C158_switch_violated"
   ],
   "note": "Proved without missing pongs and with undisturbed switches of the security profile; otherwise false of the code (negations proved)."
  },
  {
   "property": "C159",
   "status": "partial",
   "theorems": [
    "Verif.Sock.C159_stays_off_partial",
    "Verif.Sock.C159_violated"
   ],
   "note": "Proved if the station was connected; otherwise false of the code (negation proved)."
  },
  {
   "property": "C16",
   "status": "proved",
   "theorems": [
    "Verif.SC16.C16_connector",
    "Verif.SC16.C16_never_above",
    "Verif.SC16.C16_station"
   ],
   "note": "Limits up to 10^12, 1-3 phases, voltage 1 to 10^6; float rounding is not modelled (exact rationals)."
  },
  {
   "property": "C160",
   "status": "proved",
   "theorems": [
    "Verif.Sock.C160_order"
   ],
   "note": "Proved for all histories."
  },
  {
   "property": "C161",
   "status": "partial",
   "theorems": [
    "Verif.Sock.C161_true_partial",
    "Verif.Sock.C161_progress_partial",
    "Verif.Sock.C161_violated",
    "Verif.Sock.C161_empty_violated"
   ],
   "note": "Proved for the result true of messages that are not empty, and progress; false of the code for the result false and for empty messages (negations proved)."
  },
  {
   "property": "C162",
   "status": "partial",
   "theorems": [
    "Verif.Sock.C162_messages_partial",
    "Verif.Sock.C162_violated"
   ],
   "note": "Proved for messages in one frame, in any pieces; false of the code for several frames (negation proved)."
  },
  {
   "property": "C163",
   "status": "partial",
   "theorems": [
    "Verif.Met16.C163_aligned_partial",
    "Verif.Met16.C163_sampled_partial",
    "Verif.Met16.C163_unmeasured",
    "Verif.Met16.C163_neutral_violated",
    "Verif.Met16.C163_twice_violated",
    "Verif.Met16.C163_location_violated",
    "Verif.Met16.C163_temperature_violated"
   ],
   "note": "Proved for measurands listed once, locations of OCPP and measurements without current of the neutral conductor; otherwise false of the code (negations proved)."
  },
  {
   "property": "C164",
   "status": "partial",
   "theorems": [
    "Verif.Met16.C164_stop_partial",
    "Verif.Met16.C164_stop_violated"
   ],
   "note": "Proved if the keys for StopTransaction ask for nothing that is not sampled; otherwise false of the code (negation proved)."
  },
  {
   "property": "C165",
   "status": "partial",
   "theorems": [
    "Verif.Price.C165_once_v16",
    "Verif.Price.C165_once_v2",
    "Verif.Price.C165_none_v16",
    "Verif.Price.C165_reached_v16",
    "Verif.Price.C165_reached_v2",
    "Verif.Price.C165_none_v2_violated"
   ],
   "note": "Proved for both versions; in OCPP 2.x a message without triggers does not cancel earlier ones (negation proved)."
  },
  {
   "property": "C166",
   "status": "partial",
   "theorems": [
    "Verif.Price.C166_alternate_v16",
    "Verif.Price.C166_alternate_v2",
    "Verif.Price.C166_side_v16_partial",
    "Verif.Price.C166_side_v2_partial",
    "Verif.Price.C166_side_violated"
   ],
   "note": "Alternation proved; no missed crossing proved if no measured power is exactly the threshold and there are no energy triggers; a power exactly at the threshold silences the trigger (negation proved)."
  },
  {
   "property": "C167",
   "status": "partial",
   "theorems": [
    "Verif.Price.C167_time_v16_partial",
    "Verif.Price.C167_time_v2",
    "Verif.Price.C167_offset_v16_violated",
    "Verif.Price.C167_stale_violated",
    "Verif.Price.C167_past_v16_violated"
   ],
   "note": "Proved for OCPP 2.x, and for OCPP 1.6 without DisplayTimeOffset; false of the code with an offset and for earlier times that are not replaced (negations proved)."
  },
  {
   "property": "C168",
   "status": "partial",
   "theorems": [
    "Verif.Price.C168_status_partial",
    "Verif.Price.C168_stale_violated",
    "Verif.Price.C168_repeated_violated"
   ],
   "note": "Proved for the first message with status triggers of a transaction and reports that tell changes; otherwise false of the code (negations proved)."
  },
  {
   "property": "C169",
   "status": "partial",
   "theorems": [
    "Verif.Price.C169_session_partial",
    "Verif.Price.C169_final_violated",
    "Verif.Price.C169_negative_violated",
    "Verif.Price.C169_text_violated"
   ],
   "note": "Proved for numbers from 0 to 2147483647 and running transactions; false of the code for final costs after the end, negative numbers and other texts (negations proved)."
  },
  {
   "property": "C17",
   "status": "partial",
   "theorems": [
    "Verif.SC16.C17_well_formed",
    "Verif.SC16.C17_plain_well_formed",
    "Verif.SC16.C17_plain_violated",
    "Verif.SC2.C17_v2_well_formed"
   ],
   "note": "Proved for the enhanced 1.6 schedule and for 2.x; the 1.6 schedule sent to the CSMS can contain equal consecutive periods (stack level is dropped), proved as C17_plain_violated."
  },
  {
   "property": "C170",
   "status": "partial",
   "theorems": [
    "Verif.Price.C170_price_partial",
    "Verif.Price.C170_case_violated",
    "Verif.Price.C170_stopped_violated"
   ],
   "note": "Proved for tokens in the same letters without stopped transactions; otherwise false of the code (negations proved)."
  },
  {
   "property": "C171",
   "status": "partial",
   "theorems": [
    "Verif.Trig16.C171_diagnostics",
    "Verif.Trig16.C171_firmware",
    "Verif.Trig16.C171_signed_partial",
    "Verif.Trig16.C171_log_partial",
    "Verif.Trig16.C171_told",
    "Verif.Trig16.C171_restore",
    "Verif.Trig16.C171_unset_violated",
    "Verif.Trig16.C171_harmless_violated"
   ],
   "note": "Proved for all histories once a status was reported; before that, and for the effect of asking after an installation, false of the code (negations proved)."
  },
  {
   "property": "C172",
   "status": "partial",
   "theorems": [
    "Verif.Trig16.C172_rejected",
    "Verif.Trig16.C172_trigger_partial",
    "Verif.Trig16.C172_extended_partial",
    "Verif.Trig16.C172_empty_violated",
    "Verif.Trig16.C172_unmeasured_violated",
    "Verif.Trig16.C172_zero_violated",
    "Verif.Trig16.C172_sign_violated"
   ],
   "note": "Proved under the stated conditions on meter values, statuses and certificates; otherwise false of the code (negations proved)."
  },
  {
   "property": "C173",
   "status": "partial",
   "theorems": [
    "Verif.Req16.Reset.C173_rejected",
    "Verif.Req16.Reset.C173_stops",
    "Verif.Req16.Reset.C173_once",
    "Verif.Req16.Reset.C173_not_early",
    "Verif.Req16.Reset.C173_at_latest",
    "Verif.Req16.Reset.C173_idle",
    "Verif.Req16.Reset.C173_offline_violated",
    "Verif.Req16.Reset.C173_lost_violated",
    "Verif.Req16.Reset.C173_late_violated"
   ],
   "note": "Proved for all interleavings; that the reset comes promptly after the last transaction is false of the code (negations proved)."
  },
  {
   "property": "C174",
   "status": "partial",
   "theorems": [
    "Verif.Req16.C174_partial",
    "Verif.Req16.C174_overridden_violated",
    "Verif.Req16.C174_case_violated",
    "Verif.Req16.C174_stuck_violated"
   ],
   "note": "Proved for registered functions that know their message and register no others, for ids in the same spelling; otherwise false of the code (negations proved)."
  },
  {
   "property": "C175",
   "status": "partial",
   "theorems": [
    "Verif.Req16.C175_partial",
    "Verif.Req16.C175_unknown_partial",
    "Verif.Req16.C175_stuck_violated"
   ],
   "note": "Proved for applications that do not end the transaction within the call; otherwise false of the code (negation proved). The exception for connectors that do not exist is the subject of C138."
  },
  {
   "property": "C176",
   "status": "partial",
   "theorems": [
    "Verif.Req16.C176_partial",
    "Verif.Req16.C176_cancel",
    "Verif.Req16.C176_unknown_violated"
   ],
   "note": "Proved, except that connectors that do not exist are not refused (negation proved)."
  },
  {
   "property": "C177",
   "status": "partial",
   "theorems": [
    "Verif.Conf16.C177_sound_partial",
    "Verif.Conf16.C177_complete_partial",
    "Verif.Conf16.C177_separator_violated",
    "Verif.Conf16.C177_ten_violated"
   ],
   "note": "Proved up to the separator and for connectors 0 to 9; false of the code otherwise (negations proved)."
  },
  {
   "property": "C178",
   "status": "partial",
   "theorems": [
    "Verif.Conf16.C178_sound_partial",
    "Verif.Conf16.C178_complete",
    "Verif.Conf16.C178_violated"
   ],
   "note": "Offsets are accepted; accepted texts begin like offsets. What follows the digits is not looked at (negation proved)."
  },
  {
   "property": "C179",
   "status": "partial",
   "theorems": [
    "Verif.Log.C179_partial",
    "Verif.Log.C179_unlimited_partial",
    "Verif.Log.C179_interrupted_partial",
    "Verif.Log.C179_dated_partial",
    "Verif.Log.C179_unlimited_violated",
    "Verif.Log.C179_twelve_violated",
    "Verif.Log.C179_dated_violated",
    "Verif.Log.C179_second_violated",
    "Verif.Log.C179_copy_violated"
   ],
   "note": "Proved for numbers and up to eleven files, also when the process ends during a rotation, and for dates without a limit; otherwise false of the code (negations proved)."
  },
  {
   "property": "C18",
   "status": "proved",
   "theorems": [
    "Verif.SC16.C18_recurring"
   ],
   "note": ""
  },
  {
   "property": "C180",
   "status": "partial",
   "theorems": [
    "Verif.Log.C180_count_partial",
    "Verif.Log.C180_size",
    "Verif.Log.C180_violated"
   ],
   "note": "The number of files never exceeds the limit, or what it was at the start if that is more, and then does not shrink (negation proved). Sizes proved for logs without tags."
  },
  {
   "property": "C181",
   "status": "partial",
   "theorems": [
    "Verif.Log.C181_main",
    "Verif.Log.C181_session",
    "Verif.Log.C181_events_partial",
    "Verif.Log.C181_sys_violated",
    "Verif.Log.C181_raw_violated"
   ],
   "note": "Proved for messages; events of the connection and raw messages only without logs for sessions, otherwise false of the code (negations proved)."
  },
  {
   "property": "C182",
   "status": "partial",
   "theorems": [
    "Verif.Log.C182_partial",
    "Verif.Log.C182_second_partial",
    "Verif.Log.C182_violated",
    "Verif.Log.C182_session_violated"
   ],
   "note": "Proved for ids that no other message has in the meantime; otherwise false of the code (negations proved)."
  },
  {
   "property": "C183",
   "status": "partial",
   "theorems": [
    "Verif.Log.C183_partial",
    "Verif.Log.C183_no_markup",
    "Verif.Log.C183_violated",
    "Verif.Log.C183_raw_violated",
    "Verif.Log.C183_ampersand_violated"
   ],
   "note": "Proved for the text of messages without &; false of the code for actions, raw messages and & (negations proved)."
  },
  {
   "property": "C184",
   "status": "partial",
   "theorems": [
    "Verif.Log.C184_partial",
    "Verif.Log.C184_violated"
   ],
   "note": "Proved as long as no file is deleted; false of the code otherwise (negation proved for all such logs)."
  },
  {
   "property": "C185",
   "status": "partial",
   "theorems": [
    "Verif.Log.C185_partial",
    "Verif.Log.C185_violated"
   ],
   "note": "One element for each id; they are never removed (negation proved)."
  },
  {
   "property": "C186",
   "status": "partial",
   "theorems": [
    "Verif.Log.C186_partial",
    "Verif.Log.C186_new",
    "Verif.Log.C186_violated"
   ],
   "note": "Opening tags proved; entries after closing tags occur (negation proved)."
  },
  {
   "property": "C187",
   "status": "proved",
   "theorems": [
    "Verif.Fw2.C187_no_repeat",
    "Verif.Fw2.C187_sent"
   ],
   "note": ""
  },
  {
   "property": "C188",
   "status": "partial",
   "theorems": [
    "Verif.Fw2.C188_partial",
    "Verif.Fw2.C188_violated"
   ],
   "note": "Proved up to the request id, which may be that of an earlier update (negation proved)."
  },
  {
   "property": "C189",
   "status": "proved",
   "theorems": [
    "Verif.Fw2.C189"
   ],
   "note": ""
  },
  {
   "property": "C19",
   "status": "proved",
   "theorems": [
    "Verif.SC2.C19_evse",
    "Verif.SC2.C19_never_above",
    "Verif.SC2.C19_station",
    "Verif.PS.C19_reachable_sane",
    "Verif.PS.C19_input_is_stored"
   ],
   "note": "EVSE: both 2.x versions; station: 2.0.1. Limits up to 10^12, 1-3 phases, voltage 1 to 10^6; float rounding is not modelled (exact rationals)."
  },
  {
   "property": "C190",
   "status": "partial",
   "theorems": [
    "Verif.Fw2.C190_partial",
    "Verif.Fw2.C190_violated"
   ],
   "note": "Proved for histories without refused requests; otherwise false of the code (negation proved)."
  },
  {
   "property": "C191",
   "status": "proved",
   "theorems": [
    "Verif.Fw2.C191"
   ],
   "note": ""
  },
  {
   "property": "C192",
   "status": "partial",
   "theorems": [
    "Verif.Display.C192_partial",
    "Verif.Display.C192_dropped_violated",
    "Verif.Display.C192_lists_violated"
   ],
   "note": "Proved but for the component of the display, the further texts and stations without the lists of priorities and formats; those parts are false of the code (negations proved)."
  },
  {
   "property": "C193",
   "status": "partial",
   "theorems": [
    "Verif.Display.C193_partial",
    "Verif.Display.C193_round_partial",
    "Verif.Display.C193_left_violated",
    "Verif.Display.C193_identifier_violated",
    "Verif.Display.C193_long_violated"
   ],
   "note": "Proved for messages with id and priority whose texts fit; the rest is false of the code (negations proved)."
  },
  {
   "property": "C194",
   "status": "proved",
   "theorems": [
    "Verif.Ocsp.C194_all_or_nothing",
    "Verif.Ocsp.C194_results"
   ],
   "note": "For all histories, by an invariant on the trace."
  },
  {
   "property": "C195",
   "status": "proved",
   "theorems": [
    "Verif.Ocsp.C195_not_early",
    "Verif.Ocsp.C195_when_due",
    "Verif.Ocsp.C195_trigger"
   ],
   "note": "For all histories; that the thread awakes is an operation of the model."
  },
  {
   "property": "C196",
   "status": "partial",
   "theorems": [
    "Verif.Ocsp.C196_partial",
    "Verif.Ocsp.C196_answer_violated",
    "Verif.Ocsp.C196_accepted_violated"
   ],
   "note": "Proved for stations accepted once and answers that can be read; otherwise false of the code (negations proved)."
  },
  {
   "property": "C197",
   "status": "partial",
   "theorems": [
    "Verif.Ocsp.C197_partial",
    "Verif.Ocsp.C197_violated"
   ],
   "note": "Proved when no trigger waits; false of the code otherwise (negation proved)."
  },
  {
   "property": "C198",
   "status": "partial",
   "theorems": [
    "Verif.Cert16.C198_client_partial",
    "Verif.Cert16.C198_v2g_partial",
    "Verif.Cert16.C198_none",
    "Verif.Cert16.C198_violated"
   ],
   "note": "Proved while the connection lasts; false of the code afterwards (negation proved for every later history)."
  },
  {
   "property": "C199",
   "status": "partial",
   "theorems": [
    "Verif.Cert16.C199_partial",
    "Verif.Cert16.C199_new",
    "Verif.Cert16.C199_violated",
    "Verif.Cert16.C199_accepted_violated"
   ],
   "note": "Proved for the first update after a setting; false of the code for the others (negations proved)."
  },
  {
   "property": "C20",
   "status": "proved",
   "theorems": [
    "Verif.PS.C20_invariants",
    "Verif.PS.C20_tx_stacks",
    "Verif.PS.C20_remote_start_violated"
   ],
   "note": "All histories of SetChargingProfile, ClearChargingProfile, API calls, RequestStartTransaction, transaction starts and ends. The stack levels of TxProfiles are proved distinct when only TxProfiles carry transaction ids and RequestStartTransaction profiles none; a RequestStartTransaction profile with a transaction id breaks it (negation proved)."
  },
  {
   "property": "C200",
   "status": "partial",
   "theorems": [
    "Verif.Tariff.C200_told_partial",
    "Verif.Tariff.C200_only",
    "Verif.Tariff.C200_currency_violated",
    "Verif.Tariff.C200_measurand_violated"
   ],
   "note": "Proved where a currency is configured and custom data can be read; false of the code otherwise (negations proved)."
  },
  {
   "property": "C201",
   "status": "partial",
   "theorems": [
    "Verif.Tariff.C201_tariff_partial",
    "Verif.Tariff.C201_cost_partial",
    "Verif.Tariff.C201_lost_violated",
    "Verif.Tariff.C201_extra_violated"
   ],
   "note": "Proved for the two cases the code handles; false of the code in the others (negations proved)."
  },
  {
   "property": "C202",
   "status": "partial",
   "theorems": [
    "Verif.Tariff.C202_partial",
    "Verif.Tariff.C202_off",
    "Verif.Tariff.C202_currency_violated",
    "Verif.Tariff.C202_state_violated"
   ],
   "note": "Proved where a currency is configured and custom data names a state; false of the code otherwise (negations proved)."
  },
  {
   "property": "C203",
   "status": "partial",
   "theorems": [
    "Verif.Cert2.C203_partial",
    "Verif.Cert2.C203_silent",
    "Verif.Cert2.C203_violated"
   ],
   "note": "Proved for OfflineThreshold other than 0; false of the code for 0 (negation proved for every length of time)."
  },
  {
   "property": "C204",
   "status": "partial",
   "theorems": [
    "Verif.Cert2.C204_partial",
    "Verif.Cert2.C204_violated"
   ],
   "note": "Proved for OfflineThreshold other than 0; false of the code for 0 (negation proved for every history offline)."
  },
  {
   "property": "C205",
   "status": "partial",
   "theorems": [
    "Verif.Conf16.C205_hex_partial",
    "Verif.Conf16.C205_plain_partial",
    "Verif.Conf16.C205_short",
    "Verif.Conf16.C205_binary_violated",
    "Verif.Conf16.C205_plain_violated"
   ],
   "note": "Proved for hexadecimal notation of printable texts and for texts with another character from the third on; false of the code for the others (negations proved)."
  },
  {
   "property": "C206",
   "status": "partial",
   "theorems": [
    "Verif.Conf16.C206_evse_sound_partial",
    "Verif.Conf16.C206_evse_complete",
    "Verif.Conf16.C206_purposes_sound_partial",
    "Verif.Conf16.C206_purposes_complete",
    "Verif.Conf16.C206_violated"
   ],
   "note": "Every such list is accepted; what is accepted is such a list, or empty, or has one comma more (negation proved)."
  },
  {
   "property": "C207",
   "status": "partial",
   "theorems": [
    "Verif.MQ.C207_accounted",
    "Verif.MQ.C207_handed",
    "Verif.MQ.C207_settled_partial",
    "Verif.MQ.C207_dropped_never",
    "Verif.MQ.C207_violated"
   ],
   "note": "Proved for all histories up to messages dropped for overflow (whose futures are never fulfilled: proved) and the defect of C07; negation proved."
  },
  {
   "property": "C208",
   "status": "partial",
   "theorems": [
    "Verif.Await.C208_answer",
    "Verif.Await.C208_sound",
    "Verif.Await.C208_unlimited",
    "Verif.Await.C208_iso15118",
    "Verif.Await.C208_total_partial",
    "Verif.Await.C208_violated"
   ],
   "note": "Answers get through and nothing is made up in all cases; no exception if the promise is not destroyed and the answer is readable; otherwise false of the code (negations proved)."
  },
  {
   "property": "C209",
   "status": "proved",
   "theorems": [
    "Verif.UserPrice.C209_right_price"
   ],
   "note": ""
  },
  {
   "property": "C21",
   "status": "proved",
   "theorems": [
    "Verif.PS.C21_accepted_iff",
    "Verif.PS.C21_effect",
    "Verif.PS.C21_conform",
    "Verif.PS.C21_negative_limit_violated"
   ],
   "note": "Acceptance is equivalent to the written rules. Beyond the claim: negative limits are accepted (proved as C21_negative_limit_violated)."
  },
  {
   "property": "C210",
   "status": "partial",
   "theorems": [
    "Verif.UserPrice.C210_price_kept_partial",
    "Verif.UserPrice.C210_violated_same_token",
    "Verif.UserPrice.C210_violated_early"
   ],
   "note": "Proved if authorizations of one token do not overlap and the price is processed after the answer; false otherwise (negations proved)."
  },
  {
   "property": "C211",
   "status": "partial",
   "theorems": [
    "Verif.UserPrice.C211_processing_partial",
    "Verif.UserPrice.C211_violated"
   ],
   "note": "Proved while no authorization waits for an answer; false whenever a SetUserPrice is taken meanwhile (proved for all continuations)."
  },
  {
   "property": "C212",
   "status": "proved",
   "theorems": [
    "Verif.CertOps.C212_install",
    "Verif.CertOps.C212_delete",
    "Verif.CertOps.C212_signed",
    "Verif.CertOps.C212_pnc",
    "Verif.CertOps.C212_pnc_answers"
   ],
   "note": ""
  },
  {
   "property": "C213",
   "status": "partial",
   "theorems": [
    "Verif.CertOps.C213_sound",
    "Verif.CertOps.C213_list2_partial",
    "Verif.CertOps.C213_list16_partial",
    "Verif.CertOps.C213_pnc_partial",
    "Verif.CertOps.C213_violated"
   ],
   "note": "Every answer is right in all cases; there is an answer if no OEM certificates are asked for and the texts are within the limits of OCPP; false otherwise, and for DataTransfer requests without types (negations proved)."
  },
  {
   "property": "C214",
   "status": "proved",
   "theorems": [
    "Verif.CertOps.C214"
   ],
   "note": ""
  },
  {
   "property": "C215",
   "status": "proved",
   "theorems": [
    "Verif.SecEvents.C215",
    "Verif.SecEvents.C215_start"
   ],
   "note": "The start in 2.x for firmware versions of at most 180 bytes."
  },
  {
   "property": "C216",
   "status": "proved",
   "theorems": [
    "Verif.SecEvents.C216",
    "Verif.SecEvents.C216_settings"
   ],
   "note": ""
  },
  {
   "property": "C217",
   "status": "partial",
   "theorems": [
    "Verif.Keys.C217_partial",
    "Verif.Keys.C217_violated"
   ],
   "note": "For requests without components that differ only in the case of their instances; false otherwise (negation proved)."
  },
  {
   "property": "C218",
   "status": "partial",
   "theorems": [
    "Verif.Keys.C218_partial",
    "Verif.Keys.C218_violated"
   ],
   "note": "For names as they are written in the device model; not found otherwise (negation proved)."
  },
  {
   "property": "C219",
   "status": "partial",
   "theorems": [
    "Verif.Effects.C219_partial",
    "Verif.Effects.C219_violated"
   ],
   "note": "For requests that name no variable twice and a usable active network profile; false for repeated variables (negation proved)."
  },
  {
   "property": "C22",
   "status": "partial",
   "theorems": [
    "Verif.PS.C22_violated"
   ],
   "note": "False of the code: proved for every store that no external constraint ever takes part in a composite schedule."
  },
  {
   "property": "C220",
   "status": "partial",
   "theorems": [
    "Verif.Effects.C220_partial",
    "Verif.Effects.C220_violated"
   ],
   "note": "If the application leaves the interface to the device model; false otherwise (negation proved)."
  },
  {
   "property": "C221",
   "status": "partial",
   "theorems": [
    "Verif.CompReq.C221_answer",
    "Verif.CompReq.C221_contents",
    "Verif.CompReq.C221_all",
    "Verif.CompReq.C221_16_answer",
    "Verif.CompReq.C222_16_contents",
    "Verif.CompReq.C221_16_all",
    "Verif.CompReq.C221_unknown_unit_violated"
   ],
   "note": "Proved for lists of units without unknown names, contents for profiles with physical values and without values for single phases; an unknown name leads to an exception (negation proved)."
  },
  {
   "property": "C222",
   "status": "partial",
   "theorems": [
    "Verif.CompReq.C222_offline",
    "Verif.CompReq.C222_16_contents",
    "Verif.CompReq.C221_16_all",
    "Verif.CompReq.C222_enhanced_partial",
    "Verif.CompReq.C222_enhanced_violated",
    "Verif.CompReq.C222_pending_violated"
   ],
   "note": "Proved for 2.x and for GetCompositeSchedule and the plain schedules of 1.6; false for the enhanced schedules of 1.6 (negation proved)."
  },
  {
   "property": "C223",
   "status": "proved",
   "theorems": [
    "Verif.CompReq.C223_application"
   ],
   "note": "Contents for profiles with physical values and without values for single phases."
  },
  {
   "property": "C224",
   "status": "partial",
   "theorems": [
    "Verif.Req2.C224_partial",
    "Verif.Req2.C224_named",
    "Verif.Req2.C224_v2x_violated",
    "Verif.Req2.C224_versions_violated",
    "Verif.Req2.C224_empty_violated"
   ],
   "note": "Exact with one difference, which is stated: whether V2X is available at any EVSE decides for all. Component names are compared exactly. Nothing is required if only ocpp1.6 is listed, and empty values pass."
  },
  {
   "property": "C225",
   "status": "partial",
   "theorems": [
    "Verif.Req2.C225_partial",
    "Verif.Req2.C225_violated"
   ],
   "note": "Proved for what was needed at the start; a controller made available later is not checked."
  },
  {
   "property": "C226",
   "status": "proved",
   "theorems": [
    "Verif.Req2.C226_types",
    "Verif.Req2.C226_integers"
   ],
   "note": "Integers and all other types on writing; reading proved for integers."
  },
  {
   "property": "C227",
   "status": "partial",
   "theorems": [
    "Verif.AvailDm.C227_partial",
    "Verif.AvailDm.C227_violated"
   ],
   "note": "Proved from a full report on as long as the station stays online. After a short loss of the connection the device model may keep a status of the meantime. The status differs from the current one after plug events of a reserved connector (C33)."
  },
  {
   "property": "C228",
   "status": "partial",
   "theorems": [
    "Verif.AvailDm.C228_partial",
    "Verif.AvailDm.C228_violated",
    "Verif.AvailDm.C228_station",
    "Verif.AvailDm.C228_station_violated"
   ],
   "note": "The EVSE shows the status of the connector written last, which is right for one connector. The value of the station is never written."
  },
  {
   "property": "C229",
   "status": "proved",
   "theorems": [
    "Verif.PS.C229_valid",
    "Verif.PS.C229_kept"
   ],
   "note": "Checked by the rules of OCPP 2.0.1, as the version is not known before the connection."
  },
  {
   "property": "C23",
   "status": "partial",
   "theorems": [
    "Verif.PS.C23_sound_complete",
    "Verif.PS.C23_messages",
    "Verif.PS.C23_once_partial",
    "Verif.PS.C23_case_violated"
   ],
   "note": "Exactly once fails when two stored sources differ only in case (negation proved); proved otherwise."
  },
  {
   "property": "C230",
   "status": "partial",
   "theorems": [
    "Verif.PS.C230_partial",
    "Verif.PS.C230_external_violated",
    "Verif.PS.C230_dc_violated",
    "Verif.PS.C230_single_phase_violated"
   ],
   "note": "External constraints are always removed; so are profiles with phases for DC EVSEs under OCPP 2.1 and accepted profiles on single-phase stations."
  },
  {
   "property": "C231",
   "status": "partial",
   "theorems": [
    "Verif.Sock.C231_partial",
    "Verif.Sock.C231_progress_partial",
    "Verif.Sock.C231_complete_partial",
    "Verif.Sock.C231_violated"
   ],
   "note": "Violated when a callback starts the connection again: the detached thread goes on beside the new one."
  },
  {
   "property": "C232",
   "status": "partial",
   "theorems": [
    "Verif.Sock.C232_partial",
    "Verif.Sock.C232_violated"
   ],
   "note": "Violated when the queue is cleared between empty() and pop()."
  },
  {
   "property": "C233",
   "status": "proved",
   "theorems": [
    "Verif.Sock.C233_order",
    "Verif.Sock.C233_complete"
   ],
   "note": ""
  },
  {
   "property": "C234",
   "status": "partial",
   "theorems": [
    "Verif.Sock.C234_partial",
    "Verif.Sock.C234_violated"
   ],
   "note": "The stop flag is set without the mutex of the queue: the notification can be lost."
  },
  {
   "property": "C235",
   "status": "partial",
   "theorems": [
    "Verif.Met.C235_started",
    "Verif.Met.C235_sampled_partial",
    "Verif.Met.C235_clock",
    "Verif.Met.C235_only",
    "Verif.Met.C235_context_violated"
   ],
   "note": "Sampled values for measurements with the context Sample.Periodic; with others nothing (or a clock-aligned report) is sent."
  },
  {
   "property": "C236",
   "status": "partial",
   "theorems": [
    "Verif.Met.C236_partial",
    "Verif.Met.C236_catch_up",
    "Verif.Met.C236_catch_up_violated",
    "Verif.Met.C236_before_violated",
    "Verif.Met.C236_leak_violated"
   ],
   "note": "For plain values (C48) and ids used once; of readings with the same time and context the first one counts."
  },
  {
   "property": "C237",
   "status": "partial",
   "theorems": [
    "Verif.Met.C237",
    "Verif.Met.C237_next_partial"
   ],
   "note": "Late callbacks skip instants (C46_late_violated)."
  },
  {
   "property": "C238",
   "status": "partial",
   "theorems": [
    "Verif.Blocks.C238_partial",
    "Verif.Blocks.C238_exact",
    "Verif.Blocks.C238_smart_violated",
    "Verif.Blocks.C238_needs_violated",
    "Verif.Blocks.C238_connection_violated"
   ],
   "note": "Fails without smart charging (every end of a transaction) and with three functions given as empty ones; C238_exact says that these are the only cases."
  },
  {
   "property": "C239",
   "status": "partial",
   "theorems": [
    "Verif.Blocks.C239_accepted",
    "Verif.Blocks.C239_not_implemented",
    "Verif.Blocks.C239_not_implemented_quiet",
    "Verif.Blocks.C239_called",
    "Verif.Blocks.C239_served",
    "Verif.Blocks.C239_tariff_violated"
   ],
   "note": "Holds except for tariffs, for which the wrong function is required."
  },
  {
   "property": "C24",
   "status": "proved",
   "theorems": [
    "Verif.Auth.C24_justified",
    "Verif.Auth.C24_list_accepts",
    "Verif.Auth.C24_list_blocks",
    "Verif.Auth.C24_cache_accepts",
    "Verif.Auth.C24_reachable_unique",
    "Verif.Auth.C24_cache_provenance"
   ],
   "note": "All tokens, configurations, CSMS answers, failing database statements; provenance of cached answers over all histories."
  },
  {
   "property": "C240",
   "status": "partial",
   "theorems": [
    "Verif.Blocks.C240_partial",
    "Verif.Blocks.C240_which",
    "Verif.Blocks.C240_exact",
    "Verif.Blocks.C240_passed_on",
    "Verif.Blocks.C240_twice_violated",
    "Verif.Blocks.C240_log_violated"
   ],
   "note": "If the five functions that are called unchecked, and the one for logs, are registered."
  },
  {
   "property": "C241",
   "status": "proved",
   "theorems": [
    "Verif.Sock.C241_trusted",
    "Verif.Sock.C241_no_plain",
    "Verif.Sock.C241_accepted"
   ],
   "note": "OpenSSL, libwebsockets and the certificate store are inputs; how libwebsockets calls the verification callback is an assumption."
  },
  {
   "property": "C242",
   "status": "proved",
   "theorems": [
    "Verif.Sock.C242_client_certificate",
    "Verif.Sock.C242_no_certificate"
   ],
   "note": ""
  },
  {
   "property": "C243",
   "status": "partial",
   "theorems": [
    "Verif.Sock.C243_reported_partial",
    "Verif.Sock.C243_violated"
   ],
   "note": "Proved if the name is verified. Without verification of the name nothing is reported (negation proved)."
  },
  {
   "property": "C244",
   "status": "partial",
   "theorems": [
    "Verif.Sock.C244_partial",
    "Verif.Sock.C244_violated"
   ],
   "note": "Proved for attempts that get as far as connecting. A context whose preparation fails is never freed: the number grows without bound (negation proved)."
  },
  {
   "property": "C245",
   "status": "proved",
   "theorems": [
    "Verif.EndToEnd.C245",
    "Verif.EndToEnd.C245_contents"
   ],
   "note": "Composition of the models of transactions and of the message queue; includes power cuts after any step and any database write. Hypotheses: unique transaction ids, no failing database writes (C29_database_violated shows the latter is needed)."
  },
  {
   "property": "C246",
   "status": "partial",
   "theorems": [
    "Verif.EndToEnd.C246_partial",
    "Verif.EndToEnd.C246_power_violated"
   ],
   "note": "Proved for histories without power cuts inside an operation and without stop of the queue; C246_power_violated: a power cut between the two databases loses an event."
  },
  {
   "property": "C247",
   "status": "partial",
   "theorems": [
    "Verif.EndToEnd.C247_partial"
   ],
   "note": "Proved for histories without power cuts inside an operation and without stop of the queue; C246_power_violated is also a counterexample to the full claim."
  },
  {
   "property": "C248",
   "status": "partial",
   "theorems": [
    "Verif.MQ.C248_partial",
    "Verif.MQ.C248_next_partial",
    "Verif.MQ.C12_violated",
    "Verif.MQ.C07_violated"
   ],
   "note": "Proved for all reachable states of histories without the defect of C07 (a failed send that hits a message which is not at the front). A sleeping worker does not wake up by itself (C12_violated); the next transaction-related message wakes it (C248_next_partial)."
  },
  {
   "property": "C249",
   "status": "partial",
   "theorems": [
    "Verif.EndToEnd.C249_partial",
    "Verif.EndToEnd.C246_power_violated"
   ],
   "note": "Proved for histories without power cuts inside an operation and without the defects of C07 and C12."
  },
  {
   "property": "C25",
   "status": "partial",
   "theorems": [
    "Verif.Auth.C25_no_request_partial",
    "Verif.Auth.C25_contract_violated",
    "Verif.Auth.C25_at_most_one"
   ],
   "note": "False of the code for contracts (eMAID), negation proved; proved for every other token."
  },
  {
   "property": "C250",
   "status": "partial",
   "theorems": [
    "Verif.PubKeys.C250_partial",
    "Verif.PubKeys.C250_all_partial",
    "Verif.PubKeys.C250_names",
    "Verif.PubKeys.C250_long_violated",
    "Verif.PubKeys.C250_case_violated",
    "Verif.PubKeys.C250_short_violated",
    "Verif.PubKeys.C250_disk_violated",
    "Verif.PubKeys.C250_full_violated"
   ],
   "note": "Proved for keys of at most 500 bytes, a disk that works, and a configuration with no keys or one for each connector. Otherwise violated: a longer key makes GetConfiguration fail for good, a key that cannot be written is accepted and lost, a configuration with fewer keys than connectors, names in another spelling."
  },
  {
   "property": "C251",
   "status": "partial",
   "theorems": [
    "Locks.C251_partial",
    "Locks.C251_unlock_violated",
    "Locks.C251_reset_violated",
    "Locks.C251_close_violated",
    "Locks.C251_register_violated"
   ],
   "note": "Proved for all schedules if the application, in callbacks that are called with a mutex held, and the threads for received messages and events of the connection only use what is later in the order of the mutexes. Without this it is violated: stopping the transaction in the callback of UnlockConnector, stop() in the callback of a reset, a reconnection by a message while the connection is closed, registering a callback in a callback."
  },
  {
   "property": "C252",
   "status": "partial",
   "theorems": [
    "Eff16.C252_partial",
    "Eff16.C252_ping_partial",
    "Eff16.C252_resumed_violated",
    "Eff16.C252_boot_violated",
    "Eff16.C252_ping_violated"
   ],
   "note": "Proved for all histories in which the file can be written, no transaction is resumed and a registered station gets no other answer to a BootNotification than Accepted (with an interval). Violated by resumed transactions, which have no timer (an accepted change of the interval then ends the process), by such answers, and by the pings of the first connection after a change."
  },
  {
   "property": "C253",
   "status": "partial",
   "theorems": [
    "Eff16.C253_partial",
    "Eff16.C253_off_violated",
    "Eff16.C253_display_violated"
   ],
   "note": "Proved for all histories in which the station runs at the configured time and CustomDisplayCostAndPrice is true, with restarts in between. Violated if the station is off at that time, and by a restart if CustomDisplayCostAndPrice is false."
  },
  {
   "property": "C254",
   "status": "proved",
   "theorems": [
    "Verif.MQ.C254_pushed",
    "Verif.MQ.C254_dispatched"
   ],
   "note": "For every reachable state."
  },
  {
   "property": "C255",
   "status": "proved",
   "theorems": [
    "Verif.Ocsp.C255_no_update",
    "Verif.Ocsp.C255_ends"
   ],
   "note": "C255_ends excludes a second start that waits during the update: it ends the process (C196_accepted_violated)."
  },
  {
   "property": "C256",
   "status": "partial",
   "theorems": [
    "Verif.MQ.C256_named_partial",
    "Verif.MQ.C256_beginning",
    "Verif.MQ.C256_violated"
   ],
   "note": "Violated: the first name that is no message type (also one with a blank before it) ends the reading, so that the types named after it are queued. C256_beginning says for every list which types are excluded."
  },
  {
   "property": "C257",
   "status": "proved",
   "theorems": [
    "Verif.Recv.C257_made",
    "Verif.Recv.C257_refused",
    "Verif.Recv.C257_handled"
   ],
   "note": "C257_made is about the checks of the feature profiles; the other checks of the configuration file are not modelled."
  },
  {
   "property": "C258",
   "status": "partial",
   "theorems": [
    "Verif.Log.Formats.C258_16",
    "Verif.Log.Formats.C258_2_partial",
    "Verif.Log.Formats.C258_violated"
   ],
   "note": "Holds for OCPP 1.6, where no callback can be given. In 2.x the names are searched for anywhere in the text, so that session_logging also switches on the log in text; proved for lists of the other formats."
  },
  {
   "property": "C259",
   "status": "partial",
   "theorems": [
    "Verif.MQ.Stopping.C259_returns_partial",
    "Verif.MQ.Stopping.C259_notified",
    "Verif.MQ.Stopping.C259_sent",
    "Verif.MQ.Stopping.C259_violated",
    "Verif.MQ.Stopping.C259_restart_violated"
   ],
   "note": "stop clears the flag and notifies without the mutex: a worker that has just found nothing to do misses it and stop does not return without another notification; otherwise it returns. The number of messages sent after a stop is proved. In 2.x the queue is not made again, and a station that is started again sends nothing."
  },
  {
   "property": "C26",
   "status": "proved",
   "theorems": [
    "Verif.Auth.C26_answer",
    "Verif.Auth.C26_refused_unchanged",
    "Verif.Auth.C26_full",
    "Verif.Auth.C26_differential",
    "Verif.Auth.C26_reported_version",
    "Verif.Auth.C26_list_provenance",
    "Verif.Auth.C26_database_error_violated"
   ],
   "note": "With working database statements and token types of the specification; a failing statement breaks it (negation proved)."
  },
  {
   "property": "C260",
   "status": "partial",
   "theorems": [
    "Verif.Auth.C260_told_partial",
    "Verif.Auth.C260_accepted_partial",
    "Verif.Auth.C260_others",
    "Verif.Auth.C260_violated"
   ],
   "note": "Rows are found by the exact spelling of type and id: the same token in another spelling stays. Proved for the spelling that was erased; the station's own Unknown (see C28) may appear. Errors of the database are not modelled here."
  },
  {
   "property": "C261",
   "status": "proved",
   "theorems": [
    "Verif.Auth.Cleaner.C261_served",
    "Verif.Auth.Cleaner.C261_stopped",
    "Verif.Auth.Cleaner.C261_returned"
   ],
   "note": "The steps are those between accesses to the mutex, the condition variable and the flags; a round is taken to end (C58). The thread is started once, as in the code."
  },
  {
   "property": "C262",
   "status": "partial",
   "theorems": [
    "Verif.Met16.Texts.C262_accepted",
    "Verif.Met16.Texts.C262_start",
    "Verif.Met16.Texts.C262_restart",
    "Verif.Met16.Texts.C262_asked",
    "Verif.Met16.Texts.C262_once_partial",
    "Verif.Met16.Texts.C262_violated"
   ],
   "note": "Acceptance, start, restart and the readings asked for are proved in full. Each reading is asked for once only if no measurand is listed twice: the total of a measurand listed twice is asked for twice. The other checks of the constructor are in C130-C137."
  },
  {
   "property": "C27",
   "status": "partial",
   "theorems": [
    "Verif.Auth.C27_violated",
    "Verif.Auth.C27_version_last_partial",
    "Verif.Auth.C27_retry_partial"
   ],
   "note": "False of the code (negation proved). Proved: the version is written last, and repeating the request repairs list and version after a power cut at any point."
  },
  {
   "property": "C28",
   "status": "partial",
   "theorems": [
    "Verif.Auth.C28_violated",
    "Verif.Auth.C28_timeout_violated",
    "Verif.Auth.C28_rows_partial",
    "Verif.Auth.C28_answer_stored"
   ],
   "note": "False of the code (negations proved). Proved: rows of other tokens are never touched, a row of this token changes only to the answer of this call, and an answer of the CSMS is what is stored."
  },
  {
   "property": "C29",
   "status": "proved",
   "theorems": [
    "Verif.Tx.C29_strictly_increasing",
    "Verif.Tx.C29_missing",
    "Verif.Tx.C29_gap_free",
    "Verif.Tx.C29_database_violated"
   ],
   "note": "All histories with restarts and power cuts between any two atomic steps; ids of new transactions are not reused by the application; a refused database write breaks it (negation proved)."
  },
  {
   "property": "C30",
   "status": "partial",
   "theorems": [
    "Verif.Tx.C30_station_answer",
    "Verif.Tx.C30_only_when_idle",
    "Verif.Tx.C30_station_partial",
    "Verif.Tx.C30_evse_partial",
    "Verif.Tx.C30_stops_partial",
    "Verif.Tx.C30_idle_evse_violated",
    "Verif.Tx.C30_other_stopped_violated",
    "Verif.Tx.C30_station_lost_violated"
   ],
   "note": "Proved for station resets without EVSE resets in between and for resets of an EVSE with its own transaction; false for resets of idle EVSEs and for a station reset with a pending EVSE reset (negations proved)."
  },
  {
   "property": "C31",
   "status": "partial",
   "theorems": [
    "Verif.Avail.C31_unknown_partial",
    "Verif.Avail.C31_rejected",
    "Verif.Avail.C31_throws_violated",
    "Verif.Avail.C31_accepted",
    "Verif.Avail.C31_scheduled_answer",
    "Verif.Avail.C31_block",
    "Verif.Avail.C31_scheduled_partial",
    "Verif.Avail.C31_station_partial",
    "Verif.Avail.C31_erased_violated",
    "Verif.Avail.C31_operative_violated",
    "Verif.Avail.C31_block_violated",
    "Verif.Avail.C31_cancel_violated",
    "Verif.Avail.C31_restart_violated",
    "Verif.Avail.C31_firmware_violated",
    "Verif.Avail.C31_replaced_violated",
    "Verif.Avail.C31_temporary_violated"
   ],
   "note": "False of the code in the cases named violated (negations proved); proved for all other histories: requests without a transaction in the way, and Scheduled requests not followed by a request for the same EVSE, a firmware update or a restart."
  },
  {
   "property": "C32",
   "status": "proved",
   "theorems": [
    "Verif.Avail.C32_effective",
    "Verif.Avail.C32_callbacks",
    "Verif.Avail.C32_persists",
    "Verif.Avail.C32_temporary"
   ],
   "note": "All histories of requests, transactions, firmware updates, resets and restarts."
  },
  {
   "property": "C33",
   "status": "partial",
   "theorems": [
    "Verif.Avail.C33_status",
    "Verif.Avail.C33_current",
    "Verif.Avail.C33_up_to_date_partial",
    "Verif.Avail.C33_event",
    "Verif.Avail.C33_precedence",
    "Verif.Avail.C33_reserved_violated"
   ],
   "note": "False of the code for plug events of a reserved connector (negation proved); proved for all other histories."
  },
  {
   "property": "C34",
   "status": "partial",
   "theorems": [
    "Verif.Conn16.C34_visible",
    "Verif.Conn16.C34_reported",
    "Verif.Conn16.C34_code",
    "Verif.Conn16.C34_reserved_violated"
   ],
   "note": "Proved for all histories of events and errors of a connector; false at the level of sessions, where the start of a session looks at the masked status (negation proved)."
  },
  {
   "property": "C35",
   "status": "partial",
   "theorems": [
    "Verif.Rem.C35_accepted_iff",
    "Verif.Rem.C35_started",
    "Verif.Rem.C35_answer",
    "Verif.Rem.C35_profile_partial",
    "Verif.Rem.C35_invalid_violated",
    "Verif.Rem.C35_rejected_violated",
    "Verif.Rem.C35_purpose_violated",
    "Verif.Rem.C35_remote_id_violated"
   ],
   "note": "When a start is accepted and what happens: all requests and states. A start with an invalid profile is accepted; the profile of a rejected start is stored."
  },
  {
   "property": "C36",
   "status": "partial",
   "theorems": [
    "Verif.DM.C36_partial",
    "Verif.DM.C36_type",
    "Verif.DM.C36_violated",
    "Verif.DM.C36_refused_violated"
   ],
   "note": "False of the code for negative integers (negations proved, in both directions); proved as an equivalence for all other values, data types and variables."
  },
  {
   "property": "C37",
   "status": "partial",
   "theorems": [
    "Verif.DM.C37_partial",
    "Verif.DM.C37_violated",
    "Verif.DM.C37_summary_violated",
    "Verif.Mon.C37_events",
    "Verif.Mon.C37_periodic_violated"
   ],
   "note": "Proved for GetVariables, the full and configuration inventories, and events of threshold and delta monitors; false for GetReport, the summary inventory and periodic monitors (negations proved)."
  },
  {
   "property": "C38",
   "status": "partial",
   "theorems": [
    "Verif.Rep.C38_partial",
    "Verif.Rep.C38_violated"
   ],
   "note": "Numbering proved for all sizes; contents proved for up to ten entries and proved to be lost for every larger report."
  },
  {
   "property": "C39",
   "status": "proved",
   "theorems": [
    "Verif.Rep.C39",
    "Verif.Rep.C39_request"
   ],
   "note": "All texts and requests; configured lengths that are not negative."
  },
  {
   "property": "C40",
   "status": "partial",
   "theorems": [
    "Verif.Rep.C40_complete",
    "Verif.Rep.C40_size_partial",
    "Verif.Rep.C40_size_violated"
   ],
   "note": "Completeness and numbering proved for all reports and limits; the size is proved for the first ten messages and for the first hundred that are continued, and false beyond (negation proved)."
  },
  {
   "property": "C41",
   "status": "partial",
   "theorems": [
    "Verif.Con.C41_partial",
    "Verif.Con.C41_violated"
   ],
   "note": "Proved for all histories and configurations for connections opened by the station, confirmations and SetNetworkProfile; false for reconnects of the websocket on its own (negation proved)."
  },
  {
   "property": "C42",
   "status": "partial",
   "theorems": [
    "Verif.Con.C42_partial",
    "Verif.Con.C42_restart",
    "Verif.Con.C42_violated"
   ],
   "note": "Proved for lists without duplicates whose slots have profiles, all lengths and failure patterns; false with duplicates (negation proved)."
  },
  {
   "property": "C43",
   "status": "partial",
   "theorems": [
    "Verif.Sec.C43_bounded",
    "Verif.Sec.C43_waits",
    "Verif.Sec.C43_exclusive",
    "Verif.Sec.C43_same",
    "Verif.Sec.C43_crash_partial",
    "Verif.Sec.C43_crash_violated",
    "Verif.Sec.C43_lost_violated",
    "Verif.Sec.C43_attempt_violated"
   ],
   "note": "Number and times of repetitions and exclusion: all histories. No exception only if the CSMS answers before it sends the certificate; the exchange is stuck after a lost answer."
  },
  {
   "property": "C44",
   "status": "partial",
   "theorems": [
    "Verif.Str.C44_bound",
    "Verif.Str.C44_contents",
    "Verif.Str.C44_utf8_violated",
    "Verif.Str.C44_printable_violated"
   ],
   "note": "The bound is in bytes: a text is cut within a character (negation proved); not printable characters are not refused in every way of assignment (negation proved)."
  },
  {
   "property": "C45",
   "status": "partial",
   "theorems": [
    "Verif.Str.C45_equality_partial",
    "Verif.Str.C45_order_partial",
    "Verif.Str.C45_map_partial",
    "Verif.Str.C45_ne_violated",
    "Verif.Str.C45_map_violated"
   ],
   "note": "Equality is an equivalence; != and the order are case sensitive (negations proved)."
  },
  {
   "property": "C46",
   "status": "partial",
   "theorems": [
    "Verif.Met.C46_next",
    "Verif.Met.C46_firings",
    "Verif.Met.C46_late_violated",
    "Verif.Met.C46_midnight_partial",
    "Verif.Met.C46_midnight_violated",
    "Verif.Met.C46_rounding",
    "Verif.Met.C46_timestamp_partial",
    "Verif.Met.C46_timestamp_violated"
   ],
   "note": "All starts, intervals and histories of callbacks; instants are skipped by callbacks longer than an interval, and intervals that do not divide a day are not realigned (negations proved)."
  },
  {
   "property": "C47",
   "status": "partial",
   "theorems": [
    "Verif.Met.C47_partial",
    "Verif.Met.C47_message_partial",
    "Verif.Met.C47_violated"
   ],
   "note": "All lists and all size functions; a message without transaction data that is too large makes an exception (negation proved)."
  },
  {
   "property": "C48",
   "status": "partial",
   "theorems": [
    "Verif.Met.C48_partial",
    "Verif.Met.C48_location_violated",
    "Verif.Met.C48_unit_violated",
    "Verif.Met.C48_custom_violated",
    "Verif.Met.C48_signed_violated"
   ],
   "note": "All histories, for values whose samples have the same optional parts, no custom data and complete signatures; the other cases are proved to fail."
  },
  {
   "property": "C49",
   "status": "partial",
   "theorems": [
    "Verif.Wire.C49_partial",
    "Verif.Wire.C49_messageType16_partial",
    "Verif.Wire.C49_violated"
   ],
   "note": "All 173 enumerations with both conversions, all values, all texts; the one exception is a value of MessageType of OCPP 1.6 (negation proved)."
  },
  {
   "property": "C50",
   "status": "partial",
   "theorems": [
    "Verif.SC16.C50_violated",
    "Verif.SC2.C50_v2_violated",
    "Verif.SC16.C50_partial",
    "Verif.SC2.C50_v2_partial"
   ],
   "note": "Violated by the code: the recurrence is extended backwards before startSchedule."
  },
  {
   "property": "C51",
   "status": "partial",
   "theorems": [
    "Verif.SC2.C51_same_unit_partial",
    "Verif.SC2.C51_mixed_units_violated",
    "Verif.SC2.C51_default_violated"
   ],
   "note": "False of the code when profiles use different units or only the default limit applies (negations proved); proved when all profiles in force use one unit and one has a limit."
  },
  {
   "property": "C52",
   "status": "partial",
   "theorems": [
    "Verif.SC2.C52_discharge_partial",
    "Verif.SC2.C52_zero_violated"
   ],
   "note": "False of the code for discharge limit 0 (negation proved); proved for other discharge limits."
  },
  {
   "property": "C53",
   "status": "partial",
   "theorems": [
    "Verif.SC2.C53_phase_limits_violated",
    "Verif.SC2.C53_station_violated",
    "Verif.SC2.C53_none_partial",
    "Verif.SC2.C53_first_partial"
   ],
   "note": "The values of profiles that have some at later instants, and the station in 2.1, are wrong in the code: negations proved. Proved: the lowest value of each phase at the beginning of the window if the profiles have three values; no values if the profiles have none, for an EVSE in both versions and for the station in 2.0.1."
  },
  {
   "property": "C54",
   "status": "partial",
   "theorems": [
    "Verif.PS.C54_stored_profiles_used_partial",
    "Verif.PS.C54_used_are_stored",
    "Verif.PS.C54_single_phase_violated",
    "Verif.PS.C54_remote_start_violated",
    "Verif.PS.C54_transaction_id_violated",
    "Verif.PS.C54_transaction_end",
    "Verif.PS.C19_reachable_sane"
   ],
   "note": "False of the code in the named cases (negations proved); proved for all other histories."
  },
  {
   "property": "C55",
   "status": "partial",
   "theorems": [
    "Verif.PS.C55_criteria_partial",
    "Verif.PS.C55_by_id",
    "Verif.PS.C55_by_id_violated",
    "Verif.PS.C55_all_violated",
    "Verif.PS.C55_empty_violated"
   ],
   "note": "False of the code for ids of external constraints and for requests without id and criteria (negations proved); proved for criteria."
  },
  {
   "property": "C56",
   "status": "proved",
   "theorems": [
    "Verif.PS.C56_rate_limit"
   ],
   "note": ""
  },
  {
   "property": "C57",
   "status": "partial",
   "theorems": [
    "Verif.Auth.C57_distinct_rows_partial",
    "Verif.Auth.C57_custom_type_violated",
    "Verif.Auth.C57_case_violated"
   ],
   "note": "False of the code for custom types and for spellings that differ in case (negations proved); proved that tokens of the specified types share a row only if equal."
  },
  {
   "property": "C58",
   "status": "proved",
   "theorems": [
    "Verif.Auth.C58_cleanup",
    "Verif.Auth.C58_no_limit"
   ],
   "note": "Ties of last use are broken by row order in the model; sizes are additive per row."
  },
  {
   "property": "C59",
   "status": "proved",
   "theorems": [
    "Verif.Auth.C59_deauthorized",
    "Verif.Auth.C59_cached"
   ],
   "note": ""
  },
  {
   "property": "C60",
   "status": "proved",
   "theorems": [
    "Verif.Auth.C60_certificate_forwarding",
    "Verif.Auth.C60_never_unallowed"
   ],
   "note": ""
  },
  {
   "property": "C61",
   "status": "partial",
   "theorems": [
    "Verif.Tx.C61_reason",
    "Verif.Tx.C61_lifecycle_partial",
    "Verif.Tx.C61_running_partial",
    "Verif.Tx.C61_ended_twice_violated",
    "Verif.Tx.C61_started_lost_violated",
    "Verif.Tx.C61_dropped_violated",
    "Verif.Tx.C61_replaced_violated"
   ],
   "note": "Proved for histories without power cuts (restarts allowed). False of the code with power cuts, and that every transaction ends is false (negations proved)."
  },
  {
   "property": "C62",
   "status": "partial",
   "theorems": [
    "Verif.Tx.C62_reported_partial",
    "Verif.Tx.C62_current_partial",
    "Verif.Tx.C62_restart_violated"
   ],
   "note": "Proved for histories without restart; false after a restart (negation proved)."
  },
  {
   "property": "C63",
   "status": "partial",
   "theorems": [
    "Verif.Tx.C63_at_most_once",
    "Verif.Tx.C63_cause",
    "Verif.Tx.C63_applied",
    "Verif.Tx.C63_wrong_id_violated"
   ],
   "note": "At most once and provenance proved for all histories with power cuts; delivery proved when no other remote start waits with the same token, false otherwise (negation proved)."
  },
  {
   "property": "C64",
   "status": "partial",
   "theorems": [
    "Verif.Avail.C64_restored",
    "Verif.Avail.C64_unchanged_partial",
    "Verif.Avail.C64_evse_violated",
    "Verif.Avail.C64_failed_violated",
    "Verif.Avail.C64_unblocks_violated"
   ],
   "note": "False of the code when a transaction runs while the update is prepared (negations proved); proved otherwise."
  },
  {
   "property": "C65",
   "status": "partial",
   "theorems": [
    "Verif.Avail.C65_only",
    "Verif.Avail.C65_told_partial",
    "Verif.Avail.C65_cancelled_violated"
   ],
   "note": "The first part is proved for all histories; the second is proved without requests of the CSMS in between and false with them (negation proved)."
  },
  {
   "property": "C66",
   "status": "proved",
   "theorems": [
    "Verif.Conn16.C66_truthful",
    "Verif.Conn16.C66_up_to_date"
   ],
   "note": "All histories of calls, requests, timers and restarts; delivery of the messages themselves is C01 to C14."
  },
  {
   "property": "C67",
   "status": "partial",
   "theorems": [
    "Verif.Conn16.C67_transitions",
    "Verif.Conn16.C67_zero_partial",
    "Verif.Conn16.C67_zero_violated"
   ],
   "note": "Proved for all connectors but connector 0 and all histories; connector 0 can become Reserved (negation proved) and is proved to keep to its statuses if no session or reservation is started on it."
  },
  {
   "property": "C68",
   "status": "partial",
   "theorems": [
    "Verif.Conn16.C68_rejected",
    "Verif.Conn16.C68_answer",
    "Verif.Conn16.C68_now",
    "Verif.Conn16.C68_persistent",
    "Verif.Conn16.C68_scheduled_partial",
    "Verif.Conn16.C68_last_partial",
    "Verif.Conn16.C68_overridden_violated",
    "Verif.Conn16.C68_during_violated"
   ],
   "note": "Answer, immediate execution and persistence proved in every state; execution of scheduled changes proved when no newer request, firmware update or late confirmation comes in between, false otherwise (negations proved)."
  },
  {
   "property": "C69",
   "status": "proved",
   "theorems": [
    "Verif.Conn16.C69_remote"
   ],
   "note": "Every state of a charge point with at least one connector and every request."
  },
  {
   "property": "C70",
   "status": "partial",
   "theorems": [
    "Verif.Conn16.C70_only",
    "Verif.Conn16.C70_ready",
    "Verif.Conn16.C70_told",
    "Verif.Conn16.C70_restored",
    "Verif.Conn16.C70_installed_violated",
    "Verif.Conn16.C70_failed_violated",
    "Verif.Conn16.C70_stored_violated"
   ],
   "note": "Preparation, announcement and restoration proved; false after a successful installation without restart, after a failed one during a transaction, and for what is stored (negations proved)."
  },
  {
   "property": "C71",
   "status": "proved",
   "theorems": [
    "Verif.Conn16.C71_status",
    "Verif.Conn16.C71_error",
    "Verif.Conn16.C71_running"
   ],
   "note": "All histories; connectors other than connector 0."
  },
  {
   "property": "C72",
   "status": "proved",
   "theorems": [
    "Verif.DM.C72_write",
    "Verif.DM.C72_read"
   ],
   "note": "All device models whose variables and attributes are unique, as the database guarantees."
  },
  {
   "property": "C73",
   "status": "partial",
   "theorems": [
    "Verif.DM.C73_item",
    "Verif.DM.C73_partial",
    "Verif.DM.C73_violated",
    "Verif.DM.C73_told_violated"
   ],
   "note": "False of the code when a request names two attributes of one variable (negations proved); proved for all other requests."
  },
  {
   "property": "C74",
   "status": "proved",
   "theorems": [
    "Verif.DM.C74"
   ],
   "note": "All device models and requests; limits that are not negative."
  },
  {
   "property": "C75",
   "status": "proved",
   "theorems": [
    "Verif.DM.C75",
    "Verif.DM.C75_summary"
   ],
   "note": "All device models."
  },
  {
   "property": "C76",
   "status": "partial",
   "theorems": [
    "Verif.DM.C76_partial",
    "Verif.DM.C76_violated"
   ],
   "note": "False of the code as the uninitialised status is read (negation proved); proved for every other initial content."
  },
  {
   "property": "C77",
   "status": "partial",
   "theorems": [
    "Verif.Mon.C77_partial",
    "Verif.Mon.C77_violated"
   ],
   "note": "Proved for all histories in which requests with an id name the variable of that monitor; false otherwise (negation proved)."
  },
  {
   "property": "C78",
   "status": "partial",
   "theorems": [
    "Verif.Mon.C78_partial",
    "Verif.Mon.C78_clear",
    "Verif.Mon.C78_base",
    "Verif.Mon.C78_violated"
   ],
   "note": "Proved for all histories without a SetVariableMonitoring that names the monitor; false for those (negation proved). ClearVariableMonitoring is characterised completely."
  },
  {
   "property": "C79",
   "status": "proved",
   "theorems": [
    "Verif.Mon.C79_items",
    "Verif.Mon.C79_new",
    "Verif.Mon.C79_valid",
    "Verif.Mon.C79_accepted",
    "Verif.Mon.C79_reference",
    "Verif.Mon.C79_refused"
   ],
   "note": "All stores and requests; what is installed is stated for requests with an id that name the variable of that monitor (see C77)."
  },
  {
   "property": "C80",
   "status": "partial",
   "theorems": [
    "Verif.Mon.C80_partial",
    "Verif.Mon.C80_violated"
   ],
   "note": "Proved for decimal variables and multiples of a millionth; proved false for every integer variable."
  },
  {
   "property": "C81",
   "status": "proved",
   "theorems": [
    "Verif.Mon.C81"
   ],
   "note": "All stores, criteria and lists."
  },
  {
   "property": "C82",
   "status": "partial",
   "theorems": [
    "Verif.Mon.C82_partial",
    "Verif.Mon.C82_violated",
    "Verif.Mon.C82_inactive_violated",
    "Verif.Mon.C82_value_violated"
   ],
   "note": "Proved without periodic monitors, and for runs of the timer when these are active, due ones have a value and intervals are at least a second; proved false otherwise."
  },
  {
   "property": "C83",
   "status": "partial",
   "theorems": [
    "Verif.Mon.C83_partial",
    "Verif.Mon.C83_write",
    "Verif.Mon.C83_other",
    "Verif.Mon.C83_discarded_violated",
    "Verif.Mon.C83_queued_violated",
    "Verif.Mon.C83_short_violated"
   ],
   "note": "Proved for all histories of monitors that are not discarded by severity or base; three ways in which it fails are proved."
  },
  {
   "property": "C84",
   "status": "partial",
   "theorems": [
    "Verif.Mon.C84_partial",
    "Verif.Mon.C84_text",
    "Verif.Mon.C84_violated",
    "Verif.Mon.C84_reference_violated"
   ],
   "note": "Proved that large differences from the reference are reported; the reference of numbers is proved never to be updated."
  },
  {
   "property": "C85",
   "status": "partial",
   "theorems": [
    "Verif.Mon.C85_periodic",
    "Verif.Mon.C85_first",
    "Verif.Mon.C85_partial",
    "Verif.Mon.C85_violated",
    "Verif.Mon.C85_zero_violated"
   ],
   "note": "Proved for Periodic; for PeriodicClockAligned proved if no run falls within the second after an aligned instant, and proved false for every run that does."
  },
  {
   "property": "C86",
   "status": "proved",
   "theorems": [
    "Verif.Mon.C86"
   ],
   "note": "All histories, with arbitrary changes of the store of monitors."
  },
  {
   "property": "C87",
   "status": "partial",
   "theorems": [
    "Verif.Con.C87_partial",
    "Verif.Con.C87_priority",
    "Verif.Con.C87_violated"
   ],
   "note": "Proved for the first confirmation after an attempt; false for later ones (negation proved)."
  },
  {
   "property": "C88",
   "status": "partial",
   "theorems": [
    "Verif.Con.C88_partial",
    "Verif.Con.C88_next",
    "Verif.Con.C88_violated"
   ],
   "note": "Proved for slots with the same security profile; false for rising ones (negation proved)."
  },
  {
   "property": "C89",
   "status": "partial",
   "theorems": [
    "Verif.Con.C89_disconnect",
    "Verif.Con.C89_partial",
    "Verif.Con.C89_violated"
   ],
   "note": "Proved after disconnect, and while connected if no retry is pending; false otherwise (negation proved)."
  },
  {
   "property": "C90",
   "status": "partial",
   "theorems": [
    "Verif.Con.C90_profile",
    "Verif.Con.C90_partial",
    "Verif.Con.C90_violated"
   ],
   "note": "Proved as equivalences; numbers beyond the range of int throw (proved)."
  },
  {
   "property": "C91",
   "status": "proved",
   "theorems": [
    "Verif.Mon.C91",
    "Verif.Mon.C91_when"
   ],
   "note": "All histories and settings."
  },
  {
   "property": "C92",
   "status": "partial",
   "theorems": [
    "Verif.Mon.C92_partial",
    "Verif.Mon.C92_violated"
   ],
   "note": "Proved for periodic monitors; false for triggered ones (negation proved)."
  },
  {
   "property": "C93",
   "status": "partial",
   "theorems": [
    "Verif.Mon.C93_partial",
    "Verif.Mon.C93_violated"
   ],
   "note": "Proved for monitors the updater knows; false for all others (negation proved)."
  },
  {
   "property": "C94",
   "status": "proved",
   "theorems": [
    "Verif.Con.C94"
   ],
   "note": "All states and operations."
  },
  {
   "property": "C95",
   "status": "proved",
   "theorems": [
    "Verif.Sec.C95"
   ],
   "note": "All requests and configurations."
  },
  {
   "property": "C96",
   "status": "proved",
   "theorems": [
    "Verif.Rem.C96"
   ],
   "note": "All numbers of EVSEs."
  },
  {
   "property": "C97",
   "status": "partial",
   "theorems": [
    "Verif.Rem.C97_partial",
    "Verif.Rem.C97_violated"
   ],
   "note": "Connector numbers below 1 are passed on, EVSE 0 gets CALLERROR."
  },
  {
   "property": "C98",
   "status": "partial",
   "theorems": [
    "Verif.Rem.C98_partial",
    "Verif.Rem.C98_complete",
    "Verif.Rem.C98_sign_violated"
   ],
   "note": "All requests and states; SignCertificate may not follow although Accepted."
  },
  {
   "property": "C99",
   "status": "proved",
   "theorems": [
    "Verif.Rem.C99"
   ],
   "note": "All requests, configurations and EVSEs."
  }
 ]
}