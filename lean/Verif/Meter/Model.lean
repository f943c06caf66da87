/-
Model of the meter values: filters (lib/ocpp/v2/utils.cpp), averages (lib/ocpp/v2/average_meter_values.cpp), clock-aligned timers
(include/ocpp/common/aligned_timer.hpp), their storage for the transaction (lib/ocpp/v2/database_handler.cpp), the triggers of
lib/ocpp/v2/evse.cpp, and the reduction of StopTransaction.req (lib/ocpp/v16/utils.cpp).

Texts (units, signatures, vendor ids) and enumerations but the reading context are numbers; values are rationals (the code has float and
double), times milliseconds (nanoseconds in the timers).
-/
set_option linter.constructorNameAsVariable false

namespace Verif.Met

/-- `ReadingContextEnum`, include/ocpp/v2/ocpp_enums.hpp l.1376-1385. -/
inductive Ctx
  | interruptionBegin | interruptionEnd | other | clock | periodic | txBegin | txEnd | trigger
  deriving DecidableEq, Repr

/-- `CustomData` (a JSON value): an object with a vendor id and other contents, or a mere text (what `CustomData{text}` makes). -/
inductive Custom
  | object (vendor rest : Nat)
  | text (vendor : Nat)
  deriving DecidableEq, Repr

/-- `UnitOfMeasure`; a missing unit is Wh for energy, W for power. -/
structure UnitOf where
  unit : Option Nat := none
  mult : Option Int := none
  custom : Option Custom := none
  deriving DecidableEq, Repr

/-- `SignedMeterValue`. -/
structure Signed where
  data : Nat
  encoding : Nat
  method : Option Nat := none
  key : Option Nat := none
  deriving DecidableEq, Repr

/-- `SampledValue`. -/
structure Sample where
  value : Rat
  measurand : Option Nat := none
  context : Option Ctx := none
  phase : Option Nat := none
  location : Option Nat := none
  signed : Option Signed := none
  unit : Option UnitOf := none
  custom : Option Custom := none
  deriving DecidableEq, Repr

/-- `MeterValue` (without its custom data, which the code never sets; the database stores NULL, database_handler.cpp l.409). -/
structure Meter where
  time : Int := 0
  samples : List Sample := []
  deriving DecidableEq, Repr

/-! ## Filters -/

/-- `meter_value_has_any_measurand`, v2/utils.cpp l.32-37. -/
def hasAny (m : Meter) (ms : List Nat) : Bool := m.samples.any (fun s => ms.any (fun x => s.measurand == some x))

/-- The signature is taken away unless it is wanted, v2/utils.cpp l.48-50. -/
def strip (signed : Bool) (s : Sample) : Sample := if signed then s else { s with signed := none }

/-- The loop of `get_meter_value_with_measurands_applied`, v2/utils.cpp l.39-58, for one sample; `none`: erased. -/
def applyOne (ms : List Nat) (signed : Bool) (s : Sample) : Option Sample :=
  match s.measurand with
  | none => none
  | some x => if ms.contains x then some (strip signed s) else none

/-- `get_meter_value_with_measurands_applied`, v2/utils.cpp l.39-58. -/
def apply (m : Meter) (ms : List Nat) (signed : Bool) : Meter := { m with samples := m.samples.filterMap (applyOne ms signed) }

/-- The configuration of the values of TransactionEvent(Ended): SampledDataTxEndedMeasurands, AlignedDataTxEndedMeasurands,
SampledDataSignReadings, AlignedDataSignReadings. -/
structure Ended where
  sampled : List Nat := []
  aligned : List Nat := []
  signSampled : Bool := false
  signAligned : Bool := false
  deriving DecidableEq, Repr

/-- One turn of the loop of `get_meter_values_with_measurands_applied`, v2/utils.cpp l.66-99; `none`: not reported. -/
def endedOne (c : Ended) (max : Int) (m : Meter) : Option Meter :=
  match m.samples with
  | [] => none
  | s :: _ =>
    if m.time > max then none
    else match s.context with
      | none => none
      | some .txBegin | some .interruptionBegin | some .txEnd | some .interruptionEnd | some .periodic =>
        if hasAny m c.sampled then some (apply m c.sampled c.signSampled) else none
      | some .clock => if hasAny m c.aligned then some (apply m c.aligned c.signAligned) else none
      | some .other | some .trigger => none

/-- `get_meter_values_with_measurands_applied`, v2/utils.cpp l.60-103. -/
def ended (c : Ended) (max : Int) (l : List Meter) : List Meter := l.filterMap (endedOne c max)

/-- `set_meter_value_reading_context`, v2/utils.cpp l.105-112. -/
def setContext (c : Ctx) (m : Meter) : Meter := { m with samples := m.samples.map (fun s => { s with context := some c }) }

/-! ## Averages -/

/-- The key of the sums: `MeterValueMeasurands`, include/ocpp/v2/average_meter_values.hpp. -/
structure Key where
  measurand : Nat
  phase : Option Nat
  location : Option Nat
  deriving DecidableEq, Repr

/-- The measurands that are averaged: `is_avg_meas`, average_meter_values.cpp l.11-18, as numbers: Current.Import 0, Voltage 1,
Power.Active.Import 2, Frequency 3 (4 is Energy.Active.Import.Register). -/
def averaged (x : Nat) : Bool := x == 0 || x == 1 || x == 2 || x == 3

/-- The key of a sample that is averaged. -/
def keyOf (s : Sample) : Option Key :=
  match s.measurand with
  | some x => if averaged x then some ⟨x, s.phase, s.location⟩ else none
  | none => none

/-- `AverageMeterValues`: the last meter value and sum and number for every key (a `std::map`, here an association list). -/
structure Avg where
  last : Meter := {}
  sums : List (Key × Rat × Nat) := []
  deriving DecidableEq, Repr

/-- `map::at`/`find`. -/
def sumOf (l : List (Key × Rat × Nat)) (k : Key) : Option (Rat × Nat) := (l.find? (fun p => p.1 == k)).map (·.2)

/-- `try_emplace` and the addition, average_meter_values.cpp l.37-43. -/
def addSum : List (Key × Rat × Nat) → Key → Rat → List (Key × Rat × Nat)
  | [], k, v => [(k, 0 + v, 0 + 1)]
  | (k', s, n) :: r, k, v => if k' = k then (k', s + v, n + 1) :: r else (k', s, n) :: addSum r k v

/-- The loop of `set_values`, average_meter_values.cpp l.33-45. -/
def addSample (l : List (Key × Rat × Nat)) (s : Sample) : List (Key × Rat × Nat) :=
  match keyOf s with
  | some k => addSum l k s.value
  | none => l

/-- `set_values`, average_meter_values.cpp l.27-47. -/
def Avg.set (a : Avg) (m : Meter) : Avg := { last := m, sums := m.samples.foldl addSample a.sums }

/-- `clear_values`, average_meter_values.cpp l.21-25: the time stays. -/
def Avg.clear (a : Avg) : Avg := { last := { a.last with samples := [] }, sums := [] }

/-- The loop of `average_meter_value`, average_meter_values.cpp l.56-69, for one sample. -/
def average (l : List (Key × Rat × Nat)) (s : Sample) : Sample :=
  match keyOf s with
  | some k => match sumOf l k with
    | some (sum, n) => { s with value := sum / n }
    | none => s
  | none => s

/-- `retrieve_processed_values`, average_meter_values.cpp l.49-53: the stored value is changed and returned. -/
def Avg.retrieve (a : Avg) : Avg := { a with last := { a.last with samples := a.last.samples.map (average a.sums) } }

/-- Calls. -/
inductive AvgOp
  | set (m : Meter)
  | clear
  | retrieve
  deriving DecidableEq, Repr

def avgStep (a : Avg) : AvgOp → Avg
  | .set m => a.set m
  | .clear => a.clear
  | .retrieve => a.retrieve

def avgRun (ops : List AvgOp) : Avg := ops.foldl avgStep {}

/-! ## Clock-aligned timers -/

/-- Nanoseconds of a second. -/
def NS : Int := 1000000000

/-- `get_next_timepoint`, aligned_timer.hpp l.24-43 (interval in seconds, times in nanoseconds). -/
def next (start interval now : Int) : Int :=
  let diff := now - start
  if diff > 0 then start + ((diff.tdiv NS).tdiv interval + 1) * interval * NS else start

/-- The timer is set at `now` (`call_next`, aligned_timer.hpp l.45-58), and again whenever the callback has returned, at the times `ends`
(the wrapper, l.50-53). The instants it is set for. -/
def firings (start interval now : Int) (ends : List Int) : List Int := next start interval now :: ends.map (next start interval)

/-- Seconds of a day. -/
def DAY : Int := 86400

/-- The midnight (UTC) before a time: `std::chrono::floor<date::days>`. -/
def midnight (t : Int) : Int := t / (DAY * NS) * (DAY * NS)

/-- `align_timestamp`, v2/utils.cpp l.129-150; `none`: division by zero. -/
def alignTimestamp (t interval : Int) : Option Int :=
  if interval < 0 then some t
  else if interval = 0 then none
  else
    let s := (t - midnight t).tdiv NS
    some (midnight t + (s + interval.tdiv 2).tdiv interval * interval * NS)

/-! ## Clock-aligned meter values without transaction -/

/-- An EVSE: a transaction is running, the averaged values. -/
structure Evse where
  tx : Bool := false
  avg : Avg := {}
  deriving DecidableEq, Repr

/-- The station: the values of the whole station (EVSE 0), the EVSEs, AlignedDataMeasurands, AlignedDataSendDuringIdle. -/
structure Station where
  zero : Avg := {}
  evses : List Evse := []
  measurands : List Nat := []
  duringIdle : Bool := false
  deriving DecidableEq, Repr

/-- `get_latest_meter_value_filtered`, functional_blocks/meter_values.cpp l.96-106 (`include_signed` defaults to true). -/
def latest (m : Meter) (ms : List Nat) : Meter := setContext .clock (apply m ms true)

/-- A value is sent if it is not empty, functional_blocks/meter_values.cpp l.55-60, l.78-82. -/
def request (id : Nat) (m : Meter) : List (Nat × Meter) := if m.samples.isEmpty then [] else [(id, m)]

/-- What is sent for an EVSE, functional_blocks/meter_values.cpp l.63-83. The rounding of the time stamps is `alignTimestamp`. -/
def evseRequest (ms : List Nat) (p : Evse × Nat) : List (Nat × Meter) :=
  if p.1.tx then [] else request (p.2 + 1) (latest p.1.avg.retrieve.last ms)

/-- The callback of the timer, functional_blocks/meter_values.cpp l.33-86: the MeterValues requests (EVSE, value). -/
def alignedRequests (s : Station) : List (Nat × Meter) :=
  if s.duringIdle && s.evses.any (·.tx) then []
  else request 0 (latest s.zero.retrieve.last s.measurands) ++ s.evses.zipIdx.flatMap (evseRequest s.measurands)

/-- The EVSE after the callback, functional_blocks/meter_values.cpp l.63-85. -/
def evseAfter (e : Evse) : Evse := if e.tx then e else { e with avg := e.avg.retrieve.clear }

/-- The station after the callback. -/
def alignedAfter (s : Station) : Station :=
  if s.duringIdle && s.evses.any (·.tx) then s
  else { s with zero := s.zero.retrieve.clear, evses := s.evses.map evseAfter }

/-! ## Triggers of the EVSE -/

/-- Units of energy: 0 is Wh, 1 is kWh. `get_normalized_energy_value`, evse.cpp l.22-45; `none`: exception for other units. -/
def normalized (s : Sample) : Option Rat :=
  match s.unit with
  | none => some s.value
  | some u =>
    let scale : Option Rat := match u.unit with
      | none => some 1
      | some 0 => some 1
      | some 1 => some 1000
      | some _ => none
    scale.map (fun f => s.value * f * (10 : Rat) ^ (u.mult.getD 0))

/-- The samples `get_active_import_register_meter_value` looks at, evse.cpp l.381-391: measurand 4, without phase; it takes the first. -/
def register (m : Meter) : Option Sample := m.samples.find? (fun s => s.measurand == some 4 && s.phase.isNone)

/-- `get_total_power_active_import`, v2/utils.cpp l.152-159. -/
def power (m : Meter) : Option Rat := (m.samples.find? (fun s => s.measurand == some 2 && s.phase.isNone)).map (·.value)

/-- The triggers of the prices of an EVSE, evse.hpp. -/
structure Pricing where
  energy : Option Rat := none
  power : Option Rat := none
  last : Option Rat := none
  send : Bool := false
  deriving DecidableEq, Repr

/-- `std::optional<float>` of the register in Wh; the outer `none` is the exception. -/
def registerWh (m : Meter) : Option (Option Rat) :=
  match register m with
  | none => some none
  | some s => (normalized s).map some

/-- The first half of `send_meter_value_on_pricing_trigger`, evse.cpp l.590-617: the state and what was sent. The register is that of the
meter value (`on_meter_value`, l.359-366, has just stored it). -/
def energyTrigger (p : Pricing) (reg : Option Rat) (m : Meter) : Pricing × List Meter :=
  match p.energy with
  | none => (p, [])
  | some t =>
    if !p.send then ({ p with energy := none }, [])
    else match reg with
      | none => (p, [])
      | some wh =>
        if wh ≥ t * 1000 then
          let v := apply m [4, 2] true
          if v.samples.isEmpty then (p, []) else ({ p with energy := none }, [setContext .other v])
        else (p, [])

/-- The second half, evse.cpp l.619-666. -/
def powerTrigger (p : Pricing) (sent : Bool) (m : Meter) : Pricing × List Meter :=
  match p.power, power m with
  | some t, some w =>
    if !p.send then ({ p with energy := none }, [])
    else match p.last with
      | some l =>
        if (l < t ∧ w / 1000 ≥ t + t * (5 / 100)) ∨ (l > t ∧ w / 1000 ≤ t - t * (5 / 100)) then
          ({ p with last := some (w / 1000) }, if sent then [] else [setContext .other m])
        else (p, [])
      | none => ({ p with last := some (w / 1000) }, if sent then [] else [setContext .other m])
  | _, _ => (p, [])

/-- `send_meter_value_on_pricing_trigger`, evse.cpp l.589-666. -/
def pricing (p : Pricing) (reg : Option Rat) (m : Meter) : Pricing × List Meter :=
  let e := energyTrigger p reg m
  let w := powerTrigger e.1 (!e.2.isEmpty) m
  (w.1, e.2 ++ w.2)

/-- Meter values one after the other: `(register, value)`. The messages of each. -/
def pricingRun (p : Pricing) : List (Option Rat × Meter) → List (List Meter)
  | [] => []
  | (r, m) :: l => (pricing p r m).2 :: pricingRun (pricing p r m).1 l

/-- The transaction of an EVSE, as far as MaxEnergyOnInvalidId is concerned. -/
structure InvalidTx where
  check : Bool := false
  start : Option Rat := none
  deriving DecidableEq, Repr

/-- `std::lround`: half away from zero. -/
def lround (x : Rat) : Int := if x ≥ 0 then (x + 1 / 2).floor else (x - 1 / 2).ceil

/-- `check_max_energy_on_invalid_id`, evse.cpp l.393-412: the state, and whether charging is paused. -/
def checkMax (max : Option Int) (t : InvalidTx) (reg : Option Rat) : InvalidTx × Bool :=
  match max, t.check, reg, t.start with
  | some mx, true, some r, some s => if lround (r - s) ≥ mx then ({ t with check := false }, true) else (t, false)
  | _, _, _, _ => (t, false)

/-- Meter values one after the other: whether each one pauses. -/
def checkRun (max : Option Int) (t : InvalidTx) : List (Option Rat) → List Bool
  | [] => []
  | r :: l => (checkMax max t r).2 :: checkRun max (checkMax max t r).1 l

/-! ## Storage of the meter values of a transaction -/

/-- A row of METER_VALUES, config/v2/core_migrations/1_up-initial.sql l.65-72. -/
structure MRow where
  id : Nat
  tx : Nat
  time : Int
  ctx : Ctx
  deriving DecidableEq, Repr

/-- The columns of METER_VALUE_ITEMS but the id, 1_up-initial.sql l.74-88; `none`: NULL. Also the bindings of the INSERT statement. -/
structure Cols where
  value : Rat := 0
  measurand : Option Nat := none
  phase : Option Nat := none
  location : Option Nat := none
  custom : Option Nat := none
  unitCustom : Option Nat := none
  unitText : Option Nat := none
  unitMult : Option Int := none
  sData : Option Nat := none
  sMethod : Option Nat := none
  sEncoding : Option Nat := none
  sKey : Option Nat := none
  deriving DecidableEq, Repr

structure Db where
  meters : List MRow := []
  items : List (Nat × Cols) := []
  deriving DecidableEq, Repr

/-- `.at("vendorId")` of custom data; for a mere text an exception, not modelled: its text. -/
def vendor : Custom → Nat
  | .object v _ => v
  | .text v => v

/-- The bindings for the unit, database_handler.cpp l.451-465: what is missing stays as it was. -/
def bindUnit (b : Cols) : Option UnitOf → Cols
  | none => b
  | some u =>
    { b with
      unitCustom := (match u.custom with | some c => some (vendor c) | none => b.unitCustom)
      unitText := (match u.unit with | some x => some x | none => b.unitText)
      unitMult := (match u.mult with | some x => some x | none => b.unitMult) }

/-- The bindings for the signature, database_handler.cpp l.467-491. -/
def bindSigned (b : Cols) : Option Signed → Cols
  | some s => { b with sData := some s.data, sMethod := s.method, sEncoding := some s.encoding, sKey := s.key }
  | none => { b with sData := none, sMethod := none, sEncoding := none, sKey := none }

/-- The bindings for one sample, database_handler.cpp l.428-491. `sqlite3_reset` (l.497) keeps the bindings of the sample before: those for
location, custom data and unit stay if this one has none. -/
def bindSample (b : Cols) (s : Sample) : Cols :=
  bindSigned (bindUnit
    { b with
      value := s.value, measurand := s.measurand, phase := s.phase
      location := (match s.location with | some l => some l | none => b.location)
      custom := (match s.custom with | some c => some (vendor c) | none => b.custom) } s.unit) s.signed

/-- The rows of all samples, the loop of database_handler.cpp l.428-498. -/
def rowsOf (b : Cols) : List Sample → List Cols
  | [] => []
  | s :: r => bindSample b s :: rowsOf (bindSample b s) r

/-- A new ROWID (INTEGER PRIMARY KEY): one more than the highest. -/
def newId (db : Db) : Nat := db.meters.foldl (fun a r => max a r.id) 0 + 1

/-- `transaction_metervalues_insert`, database_handler.cpp l.382-502. Nothing is stored for a value without samples or context (l.383-390),
with different contexts (invalid_argument, l.393-397), or if there is one with that transaction, time and context (UNIQUE; QueryExecutionException);
the callers log the exceptions. -/
def insert (db : Db) (tx : Nat) (m : Meter) : Db :=
  match m.samples with
  | [] => db
  | s :: _ =>
    match s.context with
    | none => db
    | some c =>
      if m.samples.any (fun x => x.context != some c) then db
      else if db.meters.any (fun r => r.tx == tx && r.time == m.time && r.ctx == c) then db
      else
        { meters := db.meters ++ [⟨newId db, tx, m.time, c⟩]
          items := db.items ++ (rowsOf {} m.samples).map (fun x => (newId db, x)) }

/-- The unit read, database_handler.cpp l.551-564. -/
def readUnit (c : Cols) : Option UnitOf :=
  if c.unitCustom.isSome || c.unitText.isSome || c.unitMult.isSome then
    some { unit := c.unitText, mult := c.unitMult, custom := c.unitCustom.map .text }
  else none

/-- The signature read, database_handler.cpp l.566-575: only if no column is NULL. -/
def readSigned (c : Cols) : Option Signed :=
  match c.sData, c.sMethod, c.sEncoding, c.sKey with
  | some d, some m, some e, some k => some { data := d, encoding := e, method := some m, key := some k }
  | _, _, _, _ => none

/-- One sample read, database_handler.cpp l.527-577; `none`: for custom data the text is taken from the wrong statement, column 5 of
METER_VALUES (l.548), which does not exist: a `std::string` of a null pointer. -/
def readSample (ctx : Ctx) (c : Cols) : Option Sample :=
  if c.custom.isSome then none
  else some
    { value := c.value, context := some ctx, measurand := c.measurand, phase := c.phase, location := c.location
      unit := readUnit c, signed := readSigned c }

/-- All of a list, or `none`. -/
def allSome : List (Option α) → Option (List α)
  | [] => some []
  | none :: _ => none
  | some a :: r => (allSome r).map (a :: ·)

/-- The samples of a meter value, database_handler.cpp l.525-578. -/
def readMeter (db : Db) (r : MRow) : Option Meter :=
  (allSome ((db.items.filter (fun i => i.1 == r.id)).map (fun i => readSample r.ctx i.2))).map (fun l => ⟨r.time, l⟩)

/-- `transaction_metervalues_get_all`, database_handler.cpp l.504-594. The statement has no ORDER BY; here the rows come in the order of
insertion. -/
def getAll (db : Db) (tx : Nat) : Option (List Meter) := allSome ((db.meters.filter (fun r => r.tx == tx)).map (readMeter db))

/-- `transaction_metervalues_clear`, database_handler.cpp l.596-628. -/
def clear (db : Db) (tx : Nat) : Db :=
  { meters := db.meters.filter (fun r => r.tx != tx)
    items := db.items.filter (fun i => !(db.meters.any (fun r => r.tx == tx && r.id == i.1))) }

/-- Calls. -/
inductive DbOp
  | insert (tx : Nat) (m : Meter)
  | clear (tx : Nat)
  deriving DecidableEq, Repr

def dbStep (db : Db) : DbOp → Db
  | .insert tx m => insert db tx m
  | .clear tx => clear db tx

def dbRun (ops : List DbOp) : Db := ops.foldl dbStep {}

/-! ## Reduction of StopTransaction.req -/

/-- The inner loop of `drop_transaction_data`, v16/utils.cpp l.18-20; the first argument bounds the turns. -/
def pass : Nat → Nat → List α → List α
  | 0, _, l => l
  | n + 1, i, l => if i < l.length - 1 then pass n (i + 2) (l.eraseIdx i) else l

/-- The outer loop, v16/utils.cpp l.17-21, with the size of the message as a function of the data; the first argument bounds the turns. -/
def dropLoop (size : List α → Nat) (max : Nat) : Nat → List α → List α
  | 0, l => l
  | n + 1, l => if size l > max ∧ l.length > 2 then dropLoop size max n (pass l.length 1 l) else l

/-- The message (charge_point_impl.cpp l.4483-4495) with the data it has: reduced if it is too large; `none`: `value()` of data that is not there
(bad_optional_access, v16/utils.cpp l.16). -/
def stopTransaction (size : Option (List α) → Nat) (max : Nat) (data : Option (List α)) : Option (Option (List α)) :=
  if size data > max then
    match data with
    | none => none
    | some l => some (some (dropLoop (fun x => size (some x)) max l.length l))
  else some data

end Verif.Met
