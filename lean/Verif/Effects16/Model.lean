import Verif.Conf16.Model
/-!
What the running parts of an OCPP 1.6 station do with the configuration: timers, message queue, connection, application
(`lib/ocpp/v16/charge_point_impl.cpp`, "impl"; `lib/ocpp/v16/transaction.cpp`).

The configuration and `ChangeConfiguration` are those of `Verif.Conf16` (C130-C137). This file adds what follows an accepted change
(impl l.1866-1975), the answer to a BootNotification, transactions, connections, restarts and the passing of time.

Simplifications: the integers that `schemas/Core.json` requires are read as 0 if they are missing (the constructor refuses that). The
switch to another security profile (C136) and the timers for certificates (C194-C199) are not part of this model. `Everest::SteadyTimer` is
not part of the repository; `interval` with 0 stops it. The message that is answered, and the callbacks for changed keys, are in C130-C137.
-/

namespace Verif.Eff16
open Conf16 (Text Val Maps Env Write ciEq)

/-- Keys of the configuration (`schemas/Core.json`, `schemas/CostAndPrice.json`). -/
def heartbeatKey : Text := "HeartbeatInterval".toList
def alignedKey : Text := "ClockAlignedDataInterval".toList
def sampleKey : Text := "MeterValueSampleInterval".toList
def attemptsKey : Text := "TransactionMessageAttempts".toList
def retryKey : Text := "TransactionMessageRetryInterval".toList
def timeoutKey : Text := "ConnectionTimeOut".toList
def pingKey : Text := "WebSocketPingInterval".toList
def offsetKey : Text := "TimeOffset".toList
def dateKey : Text := "NextTimeOffsetTransitionDateTime".toList
def nextOffsetKey : Text := "TimeOffsetNextTransition".toList
def displayKey : Text := "CustomDisplayCostAndPrice".toList

/-- `getHeartbeatInterval` and the like, charge_point_configuration.cpp ("conf") l.1415, 1334, 1605, 1855, 1871, 1350. -/
def intOf (m : Maps) (k : Text) : Int :=
  match m.keys k with
  | some (.int n) => n
  | _ => 0

/-- `getDisplayTimeOffset`, `getNextTimeOffsetTransitionDateTime`, `getTimeOffsetNextTransition`, `getAuthorizationKey`, conf l.2085, 2985,
3015, 3049. -/
def textOf (m : Maps) (k : Text) : Option Text :=
  match m.keys k with
  | some (.text t) => some t
  | _ => none

/-- A timer that is started with an interval of `n` seconds; no timer runs for 0. -/
def period (n : Int) : Option Int := if n ≤ 0 then none else some n

/-- An active transaction: its connector and its timer for meter values (`none`: a null pointer; `some none`: stopped). -/
structure Tx where
  connector : Nat
  timer : Option (Option Int)
  deriving DecidableEq, Repr

/-- The station. -/
structure St where
  conf : Conf16.St
  now : Int
  booted : Bool                -- a BootNotification was accepted
  heartbeat : Option Int       -- `heartbeat_timer`
  aligned : Option Int         -- `clock_aligned_meter_values_timer`
  txs : List Tx                -- `active_transactions`
  attempts : Int               -- `transaction_message_attempts` of the message queue
  retry : Int                  -- `transaction_message_retry_interval` of the message queue
  timeout : Int                -- the connection timeout the application was told
  key : Option Text            -- `connection_options.authorization_key`
  pingOpt : Int                -- `connection_options.ping_interval_s`
  online : Bool
  ping : Option Int            -- `ping_timer`
  alarm : Option Int           -- `change_time_offset_timer`: when it fires

/-- `set_time_offset_timer`, impl l.3444-3463; `none`: the date cannot be read (an exception). -/
def setAlarm (env : Env) (date : Text) (s : St) : Option St :=
  match env.date date with
  | none => none
  | some d => some { s with alarm := if d < s.now then none else some d }

/-- `set_time_offset_timer` if there is a date, impl l.234-238, l.1968-1974. -/
def armAlarm (env : Env) (s : St) : Option St :=
  match textOf s.conf.cfg dateKey with
  | none => some s
  | some t => setAlarm env t s

/-- A transaction's timer gets a new interval, transaction.cpp l.55-58; `none`: a null pointer is dereferenced. -/
def changeTimer (n : Int) (x : Tx) : Option Tx :=
  match x.timer with
  | none => none
  | some _ => some { x with timer := some (period n) }

/-- `change_meter_values_sample_intervals`, transaction.cpp l.253-260. -/
def changeTimers (n : Int) : List Tx → Option (List Tx)
  | [] => some []
  | x :: r => (changeTimer n x).bind (fun x => (changeTimers n r).map (x :: ·))

/-- `update_heartbeat_interval`, impl l.488-490. -/
def updateHeartbeat (s : St) : St := { s with heartbeat := period (intOf s.conf.cfg heartbeatKey) }

/-- `update_clock_aligned_meter_values_interval`, impl l.498-508. -/
def updateAligned (s : St) : St := { s with aligned := period (intOf s.conf.cfg alignedKey) }

/-- `update_meter_values_sample_interval`, impl l.492-496. -/
def updateSample (s : St) : Option St := (changeTimers (intOf s.conf.cfg sampleKey) s.txs).map (fun l => { s with txs := l })

/-- `set_websocket_ping_interval` with the configured interval, impl l.1944-1952, websocket_base.cpp l.169-219. -/
def updatePing (s : St) : St :=
  match s.conf.cfg.keys pingKey with
  | some (.int n) => { s with ping := period n }
  | _ => s

/-- What follows an accepted change, impl l.1866-1975; comparisons of names do not depend on the case (cistring.hpp). `none`: the process
crashes, or an exception is thrown. -/
def follow (env : Env) (k : Text) (s : St) : Option St :=
  if ciEq k heartbeatKey then some (updateHeartbeat s)
  else if ciEq k sampleKey then updateSample s
  else if ciEq k alignedKey then some (updateAligned s)
  else if ciEq k Conf16.authKey then some { s with key := textOf s.conf.cfg Conf16.authKey }
  else if ciEq k timeoutKey then some { s with timeout := intOf s.conf.cfg timeoutKey }
  else if ciEq k attemptsKey then some { s with attempts := intOf s.conf.cfg attemptsKey }
  else if ciEq k retryKey then some { s with retry := intOf s.conf.cfg retryKey }
  else if ciEq k pingKey then some (updatePing s)
  else if ciEq k dateKey then armAlarm env s
  else some s

/-- `set_configuration_key_internal`, impl l.1845-1995: ChangeConfiguration, or the function of the API. -/
def change (env : Env) (s : St) (k t : Text) (w : Write) : Option St :=
  let r := Conf16.change env s.conf s.now k t w
  if r.2 = .accepted then follow env k { s with conf := r.1 } else some { s with conf := r.1 }

/-- `setHeartbeatInterval`, conf l.1418-1421; the file can be written. -/
def storeInt (s : St) (k : Text) (n : Int) : St := { s with conf := (Conf16.storeKey s.conf k (.int n) .ok .accepted).1 }

/-- The answer to a BootNotification, impl l.1665-1735. -/
def boot (s : St) (accepted : Bool) (n : Int) : St :=
  let s := if n > 0 then storeInt s heartbeatKey n else s
  if accepted then updateAligned (updateHeartbeat { s with booted := true }) else s

/-- `on_transaction_started` and `start_transaction`, impl l.4366-4420, l.4298-4333: the timer is started. -/
def startTx (s : St) (c : Nat) : St :=
  { s with txs := ⟨c, some (period (intOf s.conf.cfg sampleKey))⟩ :: s.txs.filter (fun x => x.connector != c) }

/-- A transaction ends, impl l.4422-4520. -/
def stopTx (s : St) (c : Nat) : St := { s with txs := s.txs.filter (fun x => x.connector != c) }

/-- `getWebsocketPingInterval().value_or(0)`, impl l.413. -/
def pingOf (m : Maps) : Int := intOf m pingKey

/-- The connection is established: websocket_libwebsockets.cpp l.1526-1551 starts the ping timer with the connection options, then the
callback of impl l.297-318 reads the options again. -/
def connect (s : St) : St :=
  { s with
    online := true
    ping := period s.pingOpt
    pingOpt := pingOf s.conf.cfg
    key := textOf s.conf.cfg Conf16.authKey }

/-- The connection is lost: websocket_libwebsockets.cpp l.1553-1570. -/
def disconnect (s : St) : St := { s with online := false, ping := none }

/-- The timer for the time offset fires, impl l.3456-3461, with `setDisplayTimeOffset`, conf l.2993-3000. -/
def fire (s : St) : St :=
  match textOf s.conf.cfg nextOffsetKey with
  | none => { s with alarm := none }
  | some t =>
    if Conf16.offsetOk t then { s with conf := (Conf16.storeKey s.conf offsetKey (.text t) .ok .accepted).1, alarm := none }
    else { s with alarm := none }

/-- Time passes until `t`. -/
def pass (s : St) (t : Int) : St :=
  match s.alarm with
  | none => { s with now := max s.now t }
  | some d => if d ≤ max s.now t then { fire s with now := max s.now t } else { s with now := max s.now t }

/-- The station with a configuration that was read: constructor (impl l.36-239), `init_websocket` and `start` (impl l.1152-1162);
the transactions of `resumed` are resumed (impl l.510-564): they are created without a timer. -/
def started (c : Conf16.St) (now : Int) (resumed : List Nat) : St :=
  { conf := c
    now := now
    booted := false
    heartbeat := none
    aligned := none
    txs := resumed.map (fun n => ⟨n, none⟩)
    attempts := intOf c.cfg attemptsKey
    retry := intOf c.cfg retryKey
    timeout := intOf c.cfg timeoutKey
    key := textOf c.cfg Conf16.authKey
    pingOpt := pingOf c.cfg
    online := false
    ping := none
    alarm := none }

/-- Start with the timer for the time offset, impl l.215-239. -/
def start (env : Env) (c : Conf16.St) (now : Int) (resumed : List Nat) : Option St :=
  if c.cfg.keys displayKey = some (.bool true) then armAlarm env (started c now resumed) else some (started c now resumed)

/-- The process ends and starts again at the time `t`. -/
def restart (env : Env) (s : St) (t : Int) (resumed : List Nat) : Option St :=
  (Conf16.restart env s.conf).bind (fun c => start env c (max s.now t) resumed)

/-- What happens to the station. -/
inductive Op
  | change (k t : Text) (w : Write)
  | boot (accepted : Bool) (interval : Int)
  | startTx (connector : Nat)
  | stopTx (connector : Nat)
  | connect
  | disconnect
  | pass (t : Int)
  | restart (t : Int) (resumed : List Nat)

/-- One step; `none`: the process does not go on. -/
def step (env : Env) (s : St) : Op → Option St
  | .change k t w => change env s k t w
  | .boot a n => some (boot s a n)
  | .startTx c => some (startTx s c)
  | .stopTx c => some (stopTx s c)
  | .connect => some (connect s)
  | .disconnect => some (disconnect s)
  | .pass t => some (pass s t)
  | .restart t l => restart env s t l

/-- A history. -/
def run (env : Env) (s : St) : List Op → Option St
  | [] => some s
  | o :: r => (step env s o).bind (fun s => run env s r)

end Verif.Eff16
