/-!
The mutexes of libocpp and the threads that use them: OCPP 1.6 (`lib/ocpp/v16`), 2.x (`lib/ocpp/v2`), the message queue, the
websocket and the logging (`include/ocpp/common/message_queue.hpp`, `lib/ocpp/common`).

A thread is a sequence of operations on mutexes; what it does otherwise is one operation `act`. The critical sections are taken from
the code one by one, with all sections that are entered inside of them; which of those are entered, how often and in what order,
is left open. Waiting for the end of a thread is waiting for a mutex that this thread has from its start to its end.

Simplifications: waiting with a time limit (futures, `wait_for`, the sending of a message over the websocket) always ends. A condition
variable that is waited for gives the mutex back; the section is then two sections. Timers (`Everest::Timer`), the database, the security
module and libwebsockets are not part of the repository; their own mutexes are not modelled. Threads that wait for something to do without
holding a mutex are at their end. The destruction of objects that are in use is not modelled.
-/

namespace Locks

/-- The mutexes; for some there are several at a time, told apart by a number (`Mx`). -/
inductive Cls
  /-- `connection_mutex` (websocket_base.hpp l.61) -/
  | connection
  /-- the end of the thread that hands over received messages (`recv_message_thread`) -/
  | endRecv
  /-- the end of the thread of the deferred callbacks -/
  | endDeferred
  /-- the end of the thread that cleans the authorization cache -/
  | endCleanup
  /-- the end of the thread that updates the OCSP cache -/
  | endOcsp
  /-- `data_transfer_callbacks_mutex` (v16/charge_point_impl.hpp) -/
  | transferCallbacks
  /-- `stop_transaction_mutex` (v16/charge_point_impl.hpp) -/
  | stopTx
  /-- `user_price_map_mutex` (v16/charge_point_impl.hpp) -/
  | userPrice
  /-- `status_mutex` of a connector (v2/connector.hpp l.48) -/
  | connectorStatus
  /-- `meter_value_mutex` of an EVSE (v2/evse.hpp l.180), recursive -/
  | evseMeter
  /-- `avg_meter_value_mutex` (v2/average_meter_values.hpp l.47) -/
  | averages
  /-- `auth_cache_cleanup_mutex` (v2/functional_blocks/authorization.hpp l.51) -/
  | cleanup
  /-- `update_ocsp_cache_lock` (v2/ocsp_updater.hpp l.74) -/
  | ocsp
  /-- `state_machines_mutex` (v16/charge_point_state_machine.hpp) -/
  | states
  /-- `active_transactions_mutex` (v16/transaction.hpp) -/
  | activeTx
  /-- `meter_values_mutex` of a transaction (v16/transaction.hpp) -/
  | txMeter
  /-- `measurement_mutex` (v16/charge_point_impl.hpp) -/
  | measurement
  /-- `charge_point_max_profiles_map_mutex`, `tx_default_profiles_map_mutex`, `tx_profiles_map_mutex` (v16/smart_charging.hpp) -/
  | maxProfiles | defaultProfiles | txProfiles
  /-- `configuration_mutex` (v16/charge_point_configuration.hpp), recursive -/
  | configuration
  /-- `change_availability_mutex` (v16/charge_point_impl.hpp) -/
  | availability
  /-- the end of the thread of the message queue -/
  | endQueue
  /-- `message_mutex` (message_queue.hpp l.177), recursive -/
  | message
  /-- `next_message_mutex` (message_queue.hpp l.187), recursive -/
  | nextMessage
  /-- `session_id_logging_mutex` (ocpp_logging.hpp l.77), recursive -/
  | sessions
  /-- `output_file_mutex` (ocpp_logging.hpp l.73), of the log or of the log of a session -/
  | file
  /-- the end of the thread that runs libwebsockets -/
  | endClient
  /-- `reconnect_mutex` (websocket_base.hpp l.60) -/
  | reconnect
  /-- the mutex of `ConnectionData` (websocket_libwebsockets.cpp l.93-223) -/
  | connData
  /-- the mutex of a `SafeQueue` (safe_queue.hpp l.117) -/
  | queue
  deriving DecidableEq, Repr

/-- A mutex: its kind, and which one of them. -/
structure Mx where
  cls : Cls
  no : Nat
  deriving DecidableEq, Repr

/-- The mutexes declared as `std::recursive_mutex` (see `Cls`). -/
def recursive : Cls → Bool
  | .evseMeter | .configuration | .message | .nextMessage | .sessions => true
  | _ => false

/-- The mutexes of which there is one in a process with one charging station (the others belong to a connector, an EVSE, a transaction, a
connection, a log or a queue, or stand for threads). -/
def single : Cls → Bool
  | .connectorStatus | .evseMeter | .averages | .txMeter | .file | .connData | .queue => false
  | .endRecv | .endDeferred | .endCleanup | .endOcsp | .endQueue | .endClient => false
  | _ => true

/-- An operation of a thread. -/
inductive Op
  | acq (m : Mx)
  | rel (m : Mx)
  | act
  deriving DecidableEq, Repr

/-- A thread: the mutexes it has (a recursive one as often as it was locked) and what remains to be done. -/
structure Thread where
  held : List Mx
  prog : List Op
  deriving DecidableEq, Repr

/-- One step of one thread. `std::mutex::lock` returns if no thread has the mutex; if the thread itself has it, it waits for itself
(the standard leaves that case undefined; glibc waits); a `std::recursive_mutex` may be locked again by the thread that has it. -/
inductive Step : List Thread → List Thread → Prop
  | acq (a b : List Thread) (h : List Mx) (p : List Op) (m : Mx) (others : ∀ t ∈ a ++ b, m ∉ t.held)
      (self : m ∈ h → recursive m.cls = true) : Step (a ++ ⟨h, .acq m :: p⟩ :: b) (a ++ ⟨m :: h, p⟩ :: b)
  | rel (a b : List Thread) (h : List Mx) (p : List Op) (m : Mx) : Step (a ++ ⟨h, .rel m :: p⟩ :: b) (a ++ ⟨h.erase m, p⟩ :: b)
  | act (a b : List Thread) (h : List Mx) (p : List Op) : Step (a ++ ⟨h, .act :: p⟩ :: b) (a ++ ⟨h, p⟩ :: b)

/-- Executions of `n` steps, with any interleaving. -/
inductive Run : List Thread → Nat → List Thread → Prop
  | refl (s : List Thread) : Run s 0 s
  | step {s s' s'' : List Thread} {n : Nat} : Run s n s' → Step s' s'' → Run s (n + 1) s''

/-- A critical section of the code, with what is entered in it: other sections, the application (a callback it has registered), or
the same recursive mutex once more. -/
inductive Sec
  | lock (c : Cls) (inner : List Sec)
  | again (c : Cls) (inner : List Sec)
  | app
  deriving Repr

/-! ### Logging (lib/ocpp/common/ocpp_logging.cpp) -/

/-- `log_output` (l.398-): l.405. -/
def logOutput : Sec := .lock .file []

/-- `sys`, `raw`, `charge_point`, `central_system` l.316-375: the sessions' logs are written with the mutex of the sessions held. -/
def logSessions : Sec := .lock .sessions [logOutput]

/-- `start_session_logging`, `stop_session_logging` l.483-495. -/
def sessionLogging : Sec := .lock .sessions []

/-- `security` l.354-363: `status_callback` is called with the mutex held. For 1.6 and 2.x it is a function of libocpp that calls the
application (and, if the oldest log was deleted, this function again: C184). -/
def logSecurity : Sec := .lock .file [.app]

/-- Logging a message: the callback of the application (l.317-319) is called with no mutex of the logging. -/
def logging : List Sec := [.app, logOutput, logSessions, sessionLogging, logSecurity]

/-! ### The websocket (lib/ocpp/common/websocket/websocket_libwebsockets.cpp, websocket_base.cpp) -/

/-- The functions of `ConnectionData` l.92-226. -/
def connState : Sec := .lock .connData []

/-- safe_queue.hpp l.18-110. -/
def queueAccess : Sec := .lock .queue []

/-- `send` l.1163-1178 with `poll_message` l.1127-1160 and `request_write`; `Websocket::send` (websocket.cpp l.78-84) logs. -/
def send : List Sec := logging ++ [connState, queueAccess]

/-- `reconnect_timer_tpm.stop()` and the like: l.973, 1029, 1537, 1565; websocket_base.cpp l.91, 162. -/
def reconnectTimer : Sec := .lock .reconnect []

/-- `safe_close_threads` l.884-935: waits for the threads of the connection. -/
def closeThreads : List Sec := [connState, queueAccess, .lock .endClient [], .lock .endRecv []]

/-- `is_trying_to_connect` l.937-940. -/
def isTrying : Sec := .lock .connection [connState]

/-- `start_connecting` l.948-1003. -/
def startConnecting : Sec := .lock .connection (closeThreads ++ [reconnectTimer])

/-- `close` l.1005-1032. -/
def close : Sec := .lock .connection (closeThreads ++ [reconnectTimer])

/-- `reconnect` l.1034-1060: the timer is started with both mutexes held. -/
def reconnect : Sec := .lock .connection (closeThreads ++ [reconnectTimer])

/-- `~WebsocketLibwebsockets` l.351-380: waits for the thread of the deferred callbacks as well. -/
def destroy : Sec := .lock .connection (closeThreads ++ [reconnectTimer, .lock .endDeferred []])

/-- What opens or closes the connection. -/
def connecting : List Sec := [isTrying, startConnecting, close, reconnect, destroy]

/-- What the thread of libwebsockets uses: `callback_minimal`, `on_conn_…` l.1526-1640. -/
def client : List Sec := [connState, queueAccess, reconnectTimer]

/-! ### The message queue (include/ocpp/common/message_queue.hpp) -/

/-- `reset_next_message_to_send`, `push_call_result`, `push_call_error`, `receive`: l.577, 666, 685, 740, 751. -/
def nextMessage : Sec := .lock .nextMessage []

/-- `add_to_normal_message_queue`, `add_to_transaction_message_queue` l.243-287, `pause`, `resume_now`, `contains_…` and the like
(l.376, 935, 966, 973, 978, 991, 1043). -/
def push : Sec := .lock .message []

/-- `resume` l.945-961: `resume_now` locks once more. -/
def resume : Sec := .lock .message [.again .message []]

/-- One round of the worker l.423-568: the message is sent with the mutex held. -/
def worker : Sec := .lock .message (nextMessage :: send)

/-- `receive` l.757-815 and `handle_timeout_or_callerror` l.820-920. -/
def answer : Sec := .lock .message [.again .message []]

/-- `stop` l.922-930 waits for the worker. -/
def stopQueue : Sec := .lock .endQueue []

/-- The message queue, with answers sent directly (`push_call_result` l.659-674). -/
def messages : List Sec := send ++ [nextMessage, push, resume, worker, answer]

/-! ### OCPP 1.6 (lib/ocpp/v16) -/

/-- transaction.cpp l.38, 51, 136. -/
def txMeterValues : Sec := .lock .txMeter []

/-- `TransactionHandler` (transaction.cpp l.162-260). -/
def transactions : Sec := .lock .activeTx [txMeterValues]

/-- `get_latest_meter_value` l.603-, `on_meter_values` l.4276, `on_max_current_offered` l.4285, `on_max_power_offered` l.4292. -/
def measurements : Sec := .lock .measurement []

/-- `ChargePointStates` (charge_point_state_machine.cpp l.288-393): the callback of charge_point_impl.cpp l.135-175 is called with the
mutex held; it may send meter values (`send_meter_value` l.996-1033). -/
def states : Sec := .lock .states [measurements, transactions, push]

/-- smart_charging.cpp l.115-117, 130-132, 503-505. -/
def allProfiles : Sec := .lock .maxProfiles [.lock .defaultProfiles [.lock .txProfiles []]]

/-- smart_charging.cpp l.401, 527; 411; 428; 549-550. -/
def someProfiles : List Sec :=
  [.lock .maxProfiles [], .lock .defaultProfiles [.lock .txProfiles []], .lock .txProfiles []]

/-- charge_point_configuration.cpp l.3277, 3302, 3383, 3827. -/
def configuration : Sec := .lock .configuration [.again .configuration []]

/-- charge_point_impl.cpp l.1225, 1757, 1766, 1831. -/
def availability : Sec := .lock .availability []

/-- `authorize_id_token` (charge_point_impl.cpp l.3549-3600): the request is pushed, and its answer waited for (for a limited time), with
the mutex held; also `handle_set_user_price` l.3310. -/
def userPrice : Sec := .lock .userPrice [push, configuration]

/-- `stop_transaction` l.4498. -/
def stopTransaction : Sec := .lock .stopTx [push]

/-- `handleUnlockConnectorRequest` l.2438-2464: the callbacks of the application are called with the mutex held. -/
def unlock : Sec := .lock .stopTx ([.app, transactions, nextMessage] ++ send)

/-- The thread of `handleResetRequest` l.2316-2333, after waiting: `reset_callback` is called with the mutex held. -/
def reset : Sec := .lock .stopTx [transactions, states, .app]

/-- `register_data_transfer_callback` l.4259-4264. -/
def register : Sec := .lock .transferCallbacks []

/-- `handleDataTransferRequest` l.2087-2119: the registered callback (of the application, or `handle_set_user_price`,
`handle_set_session_cost`, the handlers for plug and charge) is called with the mutex held. -/
def dataTransfer : Sec := .lock .transferCallbacks ([.app, userPrice, transactions, nextMessage, push, configuration] ++ send)

/-- The sections of the 1.6 part of the library. -/
def v16 : List Sec :=
  [txMeterValues, transactions, measurements, states, allProfiles, configuration, availability, userPrice, stopTransaction, unlock, reset,
    register, dataTransfer] ++ someProfiles

/-! ### OCPP 2.x (lib/ocpp/v2) -/

/-- average_meter_values.cpp l.22, 28, 49. -/
def averages : Sec := .lock .averages []

/-- `Evse::on_meter_value` (evse.cpp l.359-366): checks that may call the application or send a TransactionEvent; l.369, 382 lock again. -/
def meterValue : Sec := .lock .evseMeter [averages, .again .evseMeter [], .app, push]

/-- `Connector::submit_event` (connector.cpp l.44-): status notifications and callbacks of the application. -/
def connectorEvent : Sec := .lock .connectorStatus [.app, push]

/-- authorization.cpp l.109, 409, 448. -/
def cacheCleanup : Sec := .lock .cleanup []

/-- `stop_auth_cache_cleanup_thread` l.406-418 waits for the thread. -/
def stopCleanup : Sec := .lock .endCleanup []

/-- ocsp_updater.cpp l.29, 37, 49, 60: requests are sent, and their answers waited for (for a limited time), with the mutex held. -/
def ocspUpdate : Sec := .lock .ocsp [push]

/-- `OcspUpdater::stop` l.36-46 waits for the thread after giving the mutex back. -/
def stopOcsp : Sec := .lock .endOcsp []

/-- The sections of the 2.x part of the library. -/
def v2 : List Sec := [averages, meterValue, connectorEvent, cacheCleanup, stopCleanup, ocspUpdate, stopOcsp]

/-! ### Threads -/

/-- Everything but the opening and closing of the connection. -/
def handling : List Sec := messages ++ v16 ++ v2 ++ [.app, stopQueue]

/-- All sections of the library. -/
def all : List Sec := connecting ++ client ++ handling

/-- What a thread that has the mutexes `h` may do with the sections `items`, any number of them, one after another. When the application is
called, it may use, in that thread, the sections of the library that `allow` admits. -/
inductive Code (allow : List Mx → Sec → Prop) : List Mx → (Sec → Prop) → List Op → Prop
  | done (h : List Mx) (items : Sec → Prop) : Code allow h items []
  | act {h : List Mx} {items : Sec → Prop} {p : List Op} : Code allow h items p → Code allow h items (.act :: p)
  | lock {h : List Mx} {items : Sec → Prop} {p q : List Op} (c : Cls) (inner : List Sec) (n : Nat) : items (.lock c inner) →
      (single c = true → n = 0) → Code allow (⟨c, n⟩ :: h) (· ∈ inner) q → Code allow h items p → Code allow h items (.acq ⟨c, n⟩ :: q ++ .rel ⟨c, n⟩ :: p)
  | again {h : List Mx} {items : Sec → Prop} {p q : List Op} (c : Cls) (inner : List Sec) (n : Nat) : items (.again c inner) → ⟨c, n⟩ ∈ h →
      Code allow (⟨c, n⟩ :: h) (· ∈ inner) q → Code allow h items p → Code allow h items (.acq ⟨c, n⟩ :: q ++ .rel ⟨c, n⟩ :: p)
  | app {h : List Mx} {items : Sec → Prop} {p q : List Op} : items .app → Code allow h (fun s => s ∈ all ∧ allow h s) q →
      Code allow h items p → Code allow h items (q ++ p)

/-- The threads of a process: those of the application, of the timers, the one of a reset (`free`), and those whose end is waited for. -/
inductive Proper (allow : List Mx → Sec → Prop) : Thread → Prop
  | free {p : List Op} : Code allow [] (· ∈ all) p → Proper allow ⟨[], p⟩
  /-- `thread_websocket_message_recv_loop`: `message_callback` handles the message. -/
  | recv (n : Nat) {p : List Op} : Code allow [⟨.endRecv, n⟩] (fun s => s ∈ all ∧ allow [⟨.endRecv, n⟩] s) p →
      Proper allow ⟨[⟨.endRecv, n⟩], p ++ [.rel ⟨.endRecv, n⟩]⟩
  /-- `thread_deferred_callback_queue` -/
  | deferred (n : Nat) {p : List Op} : Code allow [⟨.endDeferred, n⟩] (fun s => s ∈ all ∧ allow [⟨.endDeferred, n⟩] s) p →
      Proper allow ⟨[⟨.endDeferred, n⟩], p ++ [.rel ⟨.endDeferred, n⟩]⟩
  /-- `thread_websocket_client_loop` -/
  | client (n : Nat) {p : List Op} : Code allow [⟨.endClient, n⟩] (· ∈ client) p →
      Proper allow ⟨[⟨.endClient, n⟩], p ++ [.rel ⟨.endClient, n⟩]⟩
  /-- the worker of the message queue -/
  | worker (n : Nat) {p : List Op} : Code allow [⟨.endQueue, n⟩] (· ∈ [worker]) p →
      Proper allow ⟨[⟨.endQueue, n⟩], p ++ [.rel ⟨.endQueue, n⟩]⟩
  /-- `cache_cleanup_handler` -/
  | cleanup (n : Nat) {p : List Op} : Code allow [⟨.endCleanup, n⟩] (· ∈ [cacheCleanup]) p →
      Proper allow ⟨[⟨.endCleanup, n⟩], p ++ [.rel ⟨.endCleanup, n⟩]⟩
  /-- `updater_thread_loop` -/
  | ocsp (n : Nat) {p : List Op} : Code allow [⟨.endOcsp, n⟩] (· ∈ [ocspUpdate]) p →
      Proper allow ⟨[⟨.endOcsp, n⟩], p ++ [.rel ⟨.endOcsp, n⟩]⟩

end Locks
