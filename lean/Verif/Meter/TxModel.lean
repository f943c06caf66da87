import Verif.Meter.Model

/-!
The meter values of a transaction (OCPP 2.x): what an EVSE samples, averages, sends and stores while a transaction is running
(lib/ocpp/v2/evse.cpp, lib/ocpp/v2/functional_blocks/transaction.cpp, lib/ocpp/v2/charge_point.cpp).

One EVSE.  Times are nanoseconds; those of meter values are whole milliseconds (the precision of the database).  Callbacks take no time:
a timer is set again at the instant its callback ran.  The triggers of the EVSE are modelled in `Verif.Meter.Model`, the other parts of
the events (sequence numbers, tokens, ...) in `Verif.Tx.Model`.
-/
set_option linter.constructorNameAsVariable false

namespace Verif.Met

/-- The variables used: SampledDataTxUpdatedInterval, SampledDataTxEndedInterval, AlignedDataInterval, AlignedDataTxEndedInterval (seconds),
SampledDataTxStartedMeasurands, SampledDataTxUpdatedMeasurands, AlignedDataMeasurands, those of `Ended`, AlignedDataSendDuringIdle and
RoundClockAlignedTimestamps. -/
structure Conf where
  su : Int := 0
  se : Int := 0
  au : Int := 0
  ae : Int := 0
  started : List Nat := []
  updated : List Nat := []
  aligned : List Nat := []
  ended : Ended := {}
  duringIdle : Bool := false
  round : Bool := false
  deriving DecidableEq, Repr

/-- The four timers of a transaction: `sampled_tx_updated_meter_values_timer`, `sampled_tx_ended_meter_values_timer`,
`aligned_tx_updated_meter_values_timer`, `aligned_tx_ended_meter_values_timer` (include/ocpp/v2/transaction.hpp). -/
inductive Tm
  | su | se | au | ae
  deriving DecidableEq, Repr

/-- A timer that is set (aligned_timer.hpp l.18-20): start point, interval in seconds, and the instant it will fire at. -/
structure Armed where
  start : Int
  interval : Int
  due : Int
  deriving DecidableEq, Repr

/-- An EVSE: the variables, `meter_value`, `aligned_data_updated`, `aligned_data_tx_end`, the transaction with its id and `start_time`, its
timers, and the tables METER_VALUES and METER_VALUE_ITEMS.  `resume` is ResumeTransactionsOnBoot; the row of the transaction in the table
TRANSACTIONS is modelled in `Verif.Tx.Model`: with `resume` it is there exactly while the transaction is. -/
structure TxState where
  resume : Bool
  conf : Conf := {}
  last : Meter := {}
  upd : Avg := {}
  fin : Avg := {}
  tx : Option (Nat × Int) := none
  timer : Tm → Option Armed := fun _ => none
  db : Db := {}

/-- The meter values of TransactionEvent requests: at the start, of an update (the trigger reason is MeterValueClock or MeterValuePeriodic),
at the end (`none`: the request has none).  `crash`: a null pointer is used. -/
inductive TxOut
  | started (tx : Nat) (v : Option Meter)
  | updated (tx : Nat) (clock : Bool) (v : Meter)
  | ended (tx : Nat) (v : Option (List Meter))
  | crash
  deriving DecidableEq, Repr

/-- What can happen: the variables are changed; the application reports a meter value; it reports the start of a transaction with its time
and reading, at the present time `now`; a timer calls its callback; the application reports the end; the clock-aligned timer of the station
runs (functional_blocks/meter_values.cpp l.33-86); the station is restarted. -/
inductive TxOp
  | config (c : Conf)
  | value (m : Meter)
  | start (id : Nat) (ts : Int) (m : Meter) (now : Int)
  | fire (t : Tm) (now : Int)
  | stop (ts : Int) (m : Meter)
  | idle
  | restart (now : Int)
  deriving DecidableEq, Repr

/-- One value of a request that is sent if it is not empty, charge_point.cpp l.463-472. -/
def filtered (id : Nat) (clock : Bool) (m : Meter) (ms : List Nat) : List TxOut :=
  if (apply m ms true).samples.isEmpty then [] else [.updated id clock (apply m ms true)]

/-- `transaction_meter_value_callback`, charge_point.cpp l.447-473: the context of the first sample decides. -/
def txMessage (c : Conf) (id : Nat) (m : Meter) : List TxOut :=
  match m.samples with
  | [] => []
  | s :: _ =>
    match s.context with
    | some .clock => filtered id true m c.aligned
    | some .periodic => filtered id false m c.updated
    | _ => []

/-- The time stamp, evse.cpp l.467-471, l.491-494. -/
def stamp (round : Bool) (interval now : Int) (m : Meter) : Meter :=
  if round then { m with time := (alignTimestamp now interval).getD m.time } else m

/-- The value of a clock-aligned instant, evse.cpp l.457-471, l.481-494: the averaged one, or the last one if there is none. -/
def clockValue (a : Avg) (last : Meter) (round : Bool) (interval now : Int) : Meter :=
  stamp round interval now (setContext .clock (if a.retrieve.last.samples.isEmpty then last else a.retrieve.last))

/-- `store_aligned_metervalue`, evse.cpp l.480-506. -/
def storeAligned (s : TxState) (id : Nat) (interval now : Int) : TxState :=
  { s with
    db := insert s.db id (clockValue s.fin s.last s.conf.round interval now)
    fin := s.fin.retrieve.clear }

/-- `interval_starting_from` if the interval is positive, evse.cpp l.427-431, l.433-447, l.450-476, l.479-510. -/
def arm (start interval now : Int) : Option Armed :=
  if interval > 0 then some ⟨start, interval, next start interval now⟩ else none

/-- The four timers, evse.cpp l.418-476, l.508-510: the sampled ones start at the start of the transaction, the clock-aligned ones at the last
midnight. -/
def armAll (c : Conf) (ts now : Int) : Tm → Option Armed
  | .su => arm ts c.su now
  | .se => arm ts c.se now
  | .au => arm (midnight now) c.au now
  | .ae => arm (midnight now) c.ae now

/-- An aligned instant lies between the start of the transaction and now, evse.cpp l.512-516. -/
def passed (c : Conf) (ts now : Int) : Bool :=
  decide (c.ae > 0) && decide (ts ≤ next (midnight now) c.ae now - c.ae * NS)

/-- `start_metering_timers`, evse.cpp l.413-520. -/
def startTimers (s : TxState) (id : Nat) (ts now : Int) : TxState :=
  let s1 := { s with
    upd := s.upd.clear
    fin := s.fin.clear
    timer := armAll s.conf ts now }
  if passed s.conf ts now then storeAligned s1 id s.conf.ae now else s1

/-- `on_transaction_started`, functional_blocks/transaction.cpp l.54-88, with `open_transaction`, evse.cpp l.240-284.  The connector exists. A
transaction that is still running is replaced (evse.cpp l.254). -/
def startTx (s : TxState) (id : Nat) (ts : Int) (m : Meter) (now : Int) : TxState × List TxOut :=
  (startTimers { s with tx := some (id, ts), db := insert s.db id m } id ts now,
   [.started id (if (apply m s.conf.started true).samples.isEmpty then none else some (apply m s.conf.started true))])

/-- The callbacks of the four timers, evse.cpp l.428-506. -/
def callback (s : TxState) (id : Nat) (interval now : Int) : Tm → TxState × List TxOut
  | .su => (s, txMessage s.conf id s.last)
  | .se => ({ s with db := insert s.db id s.last }, [])
  | .au =>
    if s.conf.duringIdle then (s, [])
    else ({ s with upd := s.upd.retrieve.clear }, txMessage s.conf id (clockValue s.upd s.last s.conf.round interval now))
  | .ae => (storeAligned s id interval now, [])

/-- A timer that is due: the callback, then the timer is set again (aligned_timer.hpp l.50-53). -/
def fireTm (s : TxState) (t : Tm) (now : Int) : TxState × List TxOut :=
  match s.timer t with
  | none => (s, [])
  | some a =>
    if now < a.due then (s, [])
    else match s.tx with
      | none => (s, [.crash])
      | some (id, _) =>
        let r := callback s id a.interval now t
        ({ r.1 with timer := fun x => if x = t then some { a with due := next a.start a.interval now } else r.1.timer x }, r.2)

/-- `on_transaction_finished`, functional_blocks/transaction.cpp l.90-139, with `close_transaction`, evse.cpp l.286-313, and
`release_transaction`, l.339-350. -/
def stopTx (s : TxState) (ts : Int) (m : Meter) : TxState × List TxOut :=
  match s.tx with
  | none => (s, [])
  | some (id, _) =>
    let s1 := { s with
      timer := fun _ => none
      db := insert s.db id m
      upd := s.upd.clear }
    match getAll s1.db id with
    | none => (s1, [.crash])
    | some l =>
      ({ s1 with
          db := clear s1.db id
          tx := none },
       [.ended id (if (ended s.conf.ended ts l).isEmpty then none else some (ended s.conf.ended ts l))])

/-- The constructor of `Evse`, evse.cpp l.50-73, with `try_resume_transaction`, l.179-206, or `delete_database_transaction`, l.208-217, after the
loss of everything that is not in a database. -/
def restartTx (s : TxState) (now : Int) : TxState :=
  let s1 := { s with
    last := {}
    upd := {}
    fin := {}
    tx := if s.resume then s.tx else none
    timer := fun _ => none }
  match s1.tx with
  | none => s1
  | some (id, ts) => startTimers s1 id ts now

/-- One event. -/
def txStep (s : TxState) : TxOp → TxState × List TxOut
  | .config c => ({ s with conf := c }, [])
  | .value m =>
    -- `on_meter_value`, evse.cpp l.359-366
    ({ s with
        last := m
        upd := s.upd.set m
        fin := s.fin.set m }, [])
  | .start id ts m now => startTx s id ts m now
  | .fire t now => fireTm s t now
  | .stop ts m => stopTx s ts m
  | .idle =>
    -- functional_blocks/meter_values.cpp l.63-85, for this EVSE
    (if s.tx.isSome then s else { s with upd := s.upd.retrieve.clear }, [])
  | .restart now => (restartTx s now, [])

end Verif.Met
