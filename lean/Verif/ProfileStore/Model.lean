import Verif.SmartCharging.V2Model

/-!
# Validation and storage of charging profiles in OCPP 2.x

Models lib/ocpp/v2/functional_blocks/smart_charging.cpp (validation, storage, reports) and the statements on the table
CHARGING_PROFILES in lib/ocpp/v2/database_handler.cpp.

Simplifications: the device model variables that are read are a record `Env`; instants are seconds; `validTo = max` is `forever`;
statements on the database do not fail; a transaction id is a number; the free-text of answers is the validation result.
-/

namespace Verif.PS
open Verif.SC16 (RUnit)

/-- `ChargingProfilePurposeEnum`. -/
inductive Purpose
  | external | stationMax | txDefault | tx | priority | localGeneration
deriving DecidableEq, Repr

/-- `ChargingProfileKindEnum`. -/
inductive Kind
  | absolute | recurring | relative | dynamic
deriving DecidableEq, Repr

/-- `OperationModeEnum`. -/
inductive OpMode
  | idle | chargingOnly | centralSetpoint | externalSetpoint | externalLimits | centralFrequency | localFrequency | localLoadBalancing
deriving DecidableEq, Repr

/-- `CurrentPhaseType`. -/
inductive PhaseType
  | AC | DC | unknown
deriving DecidableEq, Repr

/-- A value with optional values for the second and third phase. -/
structure Vals where
  l1 : Option Rat := none
  l2 : Option Rat := none
  l3 : Option Rat := none
deriving DecidableEq, Repr

/-- `ChargingSchedulePeriod`: the fields read here. `curve` is the number of points of `v2xFreqWattCurve`. -/
structure Period where
  start : Int
  limit : Vals := {}
  discharge : Vals := {}
  setpoint : Vals := {}
  reactive : Vals := {}
  phases : Option Int := none
  phaseToUse : Option Int := none
  mode : Option OpMode := none
  sleep : Option Bool := none
  curve : Option Nat := none
  baseline : Bool := false
deriving DecidableEq, Repr

/-- `ChargingSchedule`: the fields read here. -/
structure Schedule where
  unit : RUnit
  start : Option Int := none
  duration : Option Int := none
  periods : List Period
  randomDelay : Option Int := none
  useLocalTime : Option Bool := none
  limitAtSoC : Bool := false
deriving DecidableEq, Repr

/-- `ChargingProfile`. -/
structure Profile where
  id : Int
  stack : Int
  purpose : Purpose
  kind : Kind
  recur : Option SC2.Recur := none
  validFrom : Option Int := none
  validTo : Option Int := none
  txId : Option Nat := none
  dynInterval : Bool := false
  dynTime : Bool := false
  schedules : List Schedule
deriving DecidableEq, Repr

/-- `ProfileValidationResultEnum` (smart_charging.hpp l.36-80). -/
inductive Result
  | valid | evseDoesNotExist | existingExternal | invalidType | txMissingId | txEvseNotPositive | txNotOnEvse | txNoTransaction
  | txConflictingStack | emptySchedules | noPeriods | firstStartNotZero | missingStart | extraneousStart | rateLimit | idTooSmall
  | unsupportedPurpose | unsupportedKind | notDynamic | unsupportedUnit | priorityDuration | randomizedDelay | unsupportedLocalTime
  | unsupportedRandomDelay | unsupportedLimitAtSoC | unsupportedSleep | outOfOrder | invalidPhaseToUse | unsupportedPhases
  | extraneousPhases | phaseSwitching | priorityNotChargingOnly | unsupportedMode | unsupportedLimitSetpoint | noPhaseForDC
  | noCurve | signDifference | maxRelative | maxEvse | duplicateTxDefault | duplicateValidity | remoteNotTx
deriving DecidableEq, Repr

/-- What is known about an EVSE: `get_current_phase_type`, variable DCInputPhaseControl, running transaction. -/
structure EvseInfo where
  phaseType : PhaseType := .AC
  dcControl : Bool := false
  tx : Option Nat := none
deriving DecidableEq, Repr

/-- The values of the device model that are read (see the function names in `Model`), protocol version, and the EVSEs 1, 2, … -/
structure Env where
  v21 : Bool := false
  supplyPhases : Int := 3
  unitA : Bool := true
  unitW : Bool := true
  priority : Bool := false
  localGeneration : Bool := false
  dynamicProfiles : Bool := false
  localTime : Bool := false
  randomDelay : Bool := false
  limitAtSoC : Bool := false
  phaseSwitching : Bool := false
  evseSleep : Bool := false
  maxExternalId : Option Int := none
  rateLimit : Option Int := none
  available : Bool := true
  evses : List EvseInfo := []
deriving DecidableEq, Repr

/-- A row of CHARGING_PROFILES (config/v2/core_migrations/5_up, 6_up). -/
structure Row where
  evse : Int
  profile : Profile
  source : String
deriving DecidableEq, Repr

/-- End of time: `date::utc_clock::time_point::max()` (l.64). -/
def forever : Int := 9223372036

/-- `conform_validity_periods` (smart_charging.cpp l.56-68). -/
def conformValidity (p : Profile) : Profile :=
  { p with validFrom := some (p.validFrom.getD 0), validTo := some (p.validTo.getD forever) }

/-- `conform_schedule_number_phases` (l.42-49); DEFAULT_AND_MAX_NUMBER_PHASES = 3. -/
def conformPhases (x : Period) : Period := { x with phases := some (x.phases.getD 3) }

/-- All conforming changes of a valid profile (l.427, 894): number of phases only for AC. -/
def conform (pt : PhaseType) (p : Profile) : Profile :=
  let p := conformValidity p
  match pt with
  | .AC => { p with schedules := p.schedules.map fun s => { s with periods := s.periods.map conformPhases } }
  | _ => p

/-- EVSE with an id greater than 0. -/
def Env.evse? (env : Env) (evse : Int) : Option EvseInfo := if evse ≤ 0 then none else env.evses[(evse - 1).toNat]?

/-- `does_evse_exist` (evse_manager.cpp l.58-60). -/
def Env.exists? (env : Env) (evse : Int) : Bool := decide (0 ≤ evse) && decide (evse ≤ (env.evses.length : Int))

/-- `get_current_phase_type` (l.1404-1419). -/
def Env.phaseType (env : Env) (evse : Int) : PhaseType :=
  match env.evse? evse with
  | some e => e.phaseType
  | none =>
    if env.supplyPhases = 1 ∨ env.supplyPhases = 3 then .AC
    else if env.supplyPhases = 0 then .DC
    else .unknown

/-- `has_dc_input_phase_control` (l.342-361). -/
def Env.dcControl (env : Env) (evse : Int) : Bool :=
  match env.evse? evse with
  | some e => e.dcControl
  | none => env.evses.all EvseInfo.dcControl

/-- `operation_modes_for_charging_profile_purposes` (l.235-251). -/
def modesFor : Purpose → List OpMode
  | .tx => [.chargingOnly, .centralSetpoint, .externalSetpoint, .externalLimits, .centralFrequency, .localFrequency,
      .localLoadBalancing, .idle]
  | .txDefault => [.chargingOnly, .centralSetpoint, .externalSetpoint, .externalLimits, .centralFrequency, .localFrequency,
      .localLoadBalancing, .idle]
  | .priority => [.chargingOnly]
  | .stationMax => [.chargingOnly]
  | .external => [.chargingOnly, .externalLimits, .externalSetpoint]
  | .localGeneration => [.chargingOnly, .externalLimits]

/-- `LimitSetpointType`. -/
inductive LimitType
  | limit | dischargeLimit | setpoint | setpointReactive
deriving DecidableEq, Repr

/-- `limits_setpoints_per_operation_mode` (l.261-275): required and optional. -/
def limitsFor : OpMode → List LimitType × List LimitType
  | .chargingOnly => ([.limit], [])
  | .centralSetpoint => ([.setpoint], [.limit, .dischargeLimit, .setpointReactive])
  | .centralFrequency => ([.setpoint], [.limit, .dischargeLimit])
  | .localFrequency => ([], [])
  | .externalSetpoint => ([], [.limit, .dischargeLimit])
  | .externalLimits => ([], [])
  | .localLoadBalancing => ([], [])
  | .idle => ([], [])

/-- `are_limits_and_setpoints_of_operation_mode_correct` (l.1421-1433). -/
def limitOk (l : List LimitType × List LimitType) (t : LimitType) (v : Vals) : Bool :=
  !((l.1.contains t && v.l1.isNone) ||
    ((v.l1.isSome || v.l2.isSome || v.l3.isSome) && !l.1.contains t && !l.2.contains t))

/-- `check_limits_and_setpoints` (l.1435-1461). -/
def limitsOk (x : Period) : Bool :=
  let l := limitsFor (x.mode.getD .chargingOnly)
  limitOk l .limit x.limit && limitOk l .dischargeLimit x.discharge && limitOk l .setpoint x.setpoint &&
    limitOk l .setpointReactive x.reactive

/-- `all_setpoints_signs_equal` (l.1463-1481). -/
def signsOk (x : Period) : Bool :=
  match x.setpoint.l1 with
  | none => true
  | some s =>
    let neg (v : Option Rat) := v.any (fun y => decide (y < 0))
    let pos (v : Option Rat) := v.any (fun y => decide (0 < y))
    !((decide (0 < s) && (neg x.setpoint.l2 || neg x.setpoint.l3)) || (decide (s < 0) && (pos x.setpoint.l2 || pos x.setpoint.l3)))

/-- First of a list of checks that fails. A check is a condition for failure and the result. -/
def firstFailure : List (Bool × Result) → Result
  | [] => .valid
  | (bad, r) :: rest => if bad then r else firstFailure rest

/-- `if (result != Valid) { return result; }` followed by further checks. -/
def Result.andThen (r next : Result) : Result :=
  match r with
  | .valid => next
  | r => r

/-- Checks of one period (l.839-946), `next` is the start of the next one. -/
def checkPeriod (env : Env) (evse : Int) (p : Profile) (unit : RUnit) (first : Bool) (next : Option Int) (x : Period) : Result :=
  let pt := env.phaseType evse
  let mode := x.mode.getD .chargingOnly
  firstFailure [
    (decide (x.phases ≠ some 1) && x.phaseToUse.isSome, .invalidPhaseToUse),
    (x.phaseToUse.isSome && !env.phaseSwitching, .phaseSwitching),
    (first && decide (x.start ≠ 0), .firstStartNotZero),
    (next.any (fun n => decide (n ≤ x.start)), .outOfOrder),
    (decide (pt = .DC) && (x.phases.isSome || x.phaseToUse.isSome) && !env.v21, .extraneousPhases),
    (decide (pt = .DC) && (x.phases.isSome || x.phaseToUse.isSome) && env.v21 && !env.dcControl evse, .noPhaseForDC),
    (decide (pt = .AC) && x.phases.any (fun n => decide (n > env.supplyPhases)), .unsupportedPhases),
    (env.v21 && decide (p.purpose = .priority) && decide (mode ≠ .chargingOnly), .priorityNotChargingOnly),
    (env.v21 && !(modesFor p.purpose).contains mode, .unsupportedMode),
    (env.v21 && decide (mode = .localFrequency) && decide (unit = .A), .unsupportedUnit),
    (env.v21 && x.sleep.getD false && !env.evseSleep, .unsupportedSleep),
    (env.v21 && !limitsOk x, .unsupportedLimitSetpoint),
    (env.v21 && decide (mode = .localFrequency) && (x.curve.all (fun n => decide (n < 2)) || !x.baseline), .noCurve),
    (env.v21 && !signsOk x, .signDifference)]

/-- Checks of the periods in order. -/
def checkPeriods (env : Env) (evse : Int) (p : Profile) (unit : RUnit) : Bool → List Period → Result
  | _, [] => .valid
  | first, x :: rest =>
    (checkPeriod env evse p unit first (rest.head?.map Period.start) x).andThen (checkPeriods env evse p unit false rest)

/-- Supported unit (l.767-774). -/
def Env.supports (env : Env) : RUnit → Bool
  | .A => env.unitA
  | .W => env.unitW

/-- Checks of one schedule (l.766-958). -/
def checkSchedule (env : Env) (evse : Int) (p : Profile) (s : Schedule) : Result :=
  (firstFailure [
    (!env.supports s.unit, .unsupportedUnit),
    (s.periods.isEmpty, .noPeriods),
    (env.v21 && decide (p.purpose ≠ .tx) && decide (p.purpose ≠ .txDefault) && s.randomDelay.any (fun d => decide (d > 0)), .randomizedDelay),
    (env.v21 && ((decide (p.purpose = .priority) && !env.priority) || (decide (p.purpose = .localGeneration) && !env.localGeneration)),
      .unsupportedPurpose),
    (env.v21 && decide (p.kind = .dynamic) && !env.dynamicProfiles, .unsupportedKind),
    (env.v21 && (p.dynInterval || p.dynTime) && decide (p.kind ≠ .dynamic), .notDynamic),
    (env.v21 && s.useLocalTime.getD false && !env.localTime, .unsupportedLocalTime),
    (env.v21 && s.randomDelay.isSome && !env.randomDelay, .unsupportedRandomDelay),
    (env.v21 && s.limitAtSoC && !env.limitAtSoC, .unsupportedLimitAtSoC)]).andThen <|
  (checkPeriods env evse p s.unit true s.periods).andThen <|
  firstFailure [
    ((decide (p.kind = .absolute) || decide (p.kind = .recurring)) && s.start.isNone, .missingStart),
    (decide (p.kind = .relative) && s.start.isSome, .extraneousStart)]

/-- The loop over the schedules (l.766). -/
def checkSchedules (env : Env) (evse : Int) (p : Profile) : List Schedule → Result
  | [] => .valid
  | s :: rest => (checkSchedule env evse p s).andThen (checkSchedules env evse p rest)

/-- `validate_profile_schedules` (l.755-961). -/
def validateSchedules (env : Env) (evse : Int) (p : Profile) : Result :=
  if p.schedules.isEmpty then .emptySchedules else checkSchedules env evse p p.schedules

/-- `verify_no_conflicting_external_constraints_id` (l.963-986). -/
def checkExternalId (env : Env) (rows : List Row) (p : Profile) : Result :=
  if env.v21 && env.maxExternalId.any (fun m => decide (p.id ≤ m)) then .idTooSmall
  else if rows.any (fun r => decide (r.profile.id = p.id) && decide (r.profile.purpose = .external)) then .existingExternal
  else .valid

/-- `is_overlapping_validity_period` (l.1319-1345); `p` is conformed. -/
def overlaps (rows : List Row) (evse : Int) (p : Profile) : Bool :=
  if p.purpose = .tx then false
  else rows.any fun r => decide (r.profile.purpose = p.purpose) && decide (r.evse = evse) && decide (r.profile.id ≠ p.id) &&
    decide (r.profile.stack = p.stack) &&
    decide (p.validFrom.getD 0 ≤ r.profile.validTo.getD forever) && decide (p.validTo.getD forever ≥ r.profile.validFrom.getD 0)

/-- Where a profile comes from: `AddChargingProfileSource`. -/
inductive Origin
  | set | remoteStart
deriving DecidableEq, Repr

/-- `validate_charging_station_max_profile` (l.634-650). -/
def checkMax (evse : Int) (p : Profile) : Result :=
  if evse > 0 then .maxEvse else if p.kind = .relative then .maxRelative else .valid

/-- `validate_tx_default_profile` (l.652-666). -/
def checkTxDefault (rows : List Row) (evse : Int) (p : Profile) : Result :=
  if rows.any (fun r => decide (r.profile.purpose = .txDefault) && (if evse = 0 then decide (r.evse ≠ 0) else decide (r.evse = 0)) &&
    decide (r.profile.stack = p.stack) && decide (r.profile.id ≠ p.id)) then .duplicateTxDefault else .valid

/-- `validate_tx_profile` (l.669-724). -/
def checkTx (env : Env) (rows : List Row) (evse : Int) (p : Profile) (origin : Origin) : Result :=
  if evse ≤ 0 then .txEvseNotPositive
  else if !env.exists? evse then .evseDoesNotExist
  else if origin = .remoteStart then .valid
  else match p.txId with
    | none => .txMissingId
    | some i =>
      match (env.evse? evse).bind EvseInfo.tx with
      | none => .txNoTransaction
      | some j =>
        if j ≠ i then .txNotOnEvse
        else if rows.any (fun r => decide (r.profile.txId = some i) && decide (r.profile.stack = p.stack) && decide (r.profile.id ≠ p.id)) then
          .txConflictingStack
        else .valid

/-- `validate_priority_charging_profile` (l.726-746). -/
def checkPriority (p : Profile) : Result := if p.schedules.any (fun s => s.duration.isSome) then .priorityDuration else .valid

/-- Purpose-specific checks (l.459-481). -/
def checkPurpose (env : Env) (rows : List Row) (evse : Int) (p : Profile) (origin : Origin) : Result :=
  match p.purpose with
  | .stationMax => checkMax evse p
  | .txDefault => checkTxDefault rows evse p
  | .tx => checkTx env rows evse p origin
  | .external => .valid
  | .priority => checkPriority p
  | .localGeneration => .invalidType

/-- `conform_and_validate_profile` (l.415-484): the result. The profile afterwards is `conform (env.phaseType evse) p`. -/
def validate (env : Env) (rows : List Row) (evse : Int) (p : Profile) (origin : Origin) : Result :=
  if origin = .remoteStart ∧ p.purpose ≠ .tx then .remoteNotTx
  else if evse ≠ 0 ∧ env.exists? evse = false then .evseDoesNotExist
  else (checkExternalId env rows p).andThen <| (validateSchedules env evse p).andThen <|
    if overlaps rows evse (conformValidity p) then .duplicateValidity else checkPurpose env rows evse p origin

/-! ## State and requests -/

/-- Store, and `last_charging_profile_update` (seconds). -/
structure State where
  env : Env
  rows : List Row
  last : Purpose → Option Int := fun _ => none

/-- `verify_rate_limit` (l.316-340): too early, and the new time stamps. -/
def rateLimited (s : State) (now : Int) (p : Profile) : Bool :=
  match s.env.v21, s.env.rateLimit, s.last p.purpose with
  | true, some l, some t => decide (now - t < l)
  | _, _, _ => false

def stamp (s : State) (now : Int) (p : Profile) : State :=
  if s.env.v21 && s.env.rateLimit.isSome then
    { s with last := fun u => if u = p.purpose then some now else s.last u }
  else s

/-- `insert_or_update_charging_profile` (database_handler.cpp l.762-791): replaces the row with that id. -/
def insert (rows : List Row) (r : Row) : List Row := rows.filter (fun x => decide (x.profile.id ≠ r.profile.id)) ++ [r]

/-- `conform_validate_and_add_profile` (l.391-413). -/
def add (s : State) (now : Int) (evse : Int) (p : Profile) (source : String) (origin : Origin) : State × Result :=
  match validate s.env s.rows evse p origin with
  | .valid =>
    let s' := stamp s now p
    if rateLimited s now p then (s', .rateLimit)
    else ({ s' with rows := insert s.rows ⟨evse, conform (s.env.phaseType evse) p, source⟩ }, .valid)
  | r => (s, r)

/-- Answer to SetChargingProfile. -/
inductive Answer
  | callError                          -- NotSupported
  | accepted
  | rejected (r : Option Result)       -- `none`: ChargingStationExternalConstraints in the request
deriving DecidableEq, Repr

/-- `handle_set_charging_profile_req` (l.1069-1124). -/
def handleSet (s : State) (now : Int) (evse : Int) (p : Profile) : State × Answer :=
  if !s.env.available then (s, .callError)
  else if p.purpose = .external then (s, .rejected none)
  else
    let q := add s now evse p "CSO" .set
    (q.1, if q.2 = .valid then .accepted else .rejected (some q.2))

/-- ClearChargingProfile request: profile id, or criteria (purpose, stack level, EVSE). -/
structure Criteria where
  purpose : Option Purpose := none
  stack : Option Int := none
  evse : Option Int := none
deriving DecidableEq, Repr

/-- Rows selected by the criteria (database_handler.cpp l.831-872). -/
def Criteria.selects (c : Criteria) (r : Row) : Bool :=
  decide (r.profile.purpose ≠ .external) && c.purpose.all (fun u => decide (r.profile.purpose = u)) &&
    c.stack.all (fun x => decide (r.profile.stack = x)) && c.evse.all (fun x => decide (r.evse = x))

/-- `clear_charging_profiles_matching_criteria` (l.819-875), `clear_profiles` (smart_charging.cpp l.1009-1019) and
`handle_clear_charging_profile_req` (l.1126-1152): new rows, and whether the answer is Accepted. -/
def handleClear (rows : List Row) (id : Option Int) (c : Option Criteria) : List Row × Bool :=
  if c.any (fun c => decide (c.purpose = some .external)) then (rows, false)
  else match id with
    | some i => (rows.filter (fun r => decide (r.profile.id ≠ i)), rows.any (fun r => decide (r.profile.id = i)))
    | none =>
      match c with
      | none => ([], true)
      | some c =>
        if c.purpose.isSome || c.evse.isSome || c.stack.isSome then
          (rows.filter (fun r => !c.selects r), rows.any c.selects)
        else (rows, false)

/-- `delete_transaction_tx_profiles` (l.387-389, database_handler.cpp l.805-813). -/
def deleteTx (rows : List Row) (i : Nat) : List Row := rows.filter (fun r => decide (r.profile.txId ≠ some i))

/-- `get_valid_profiles_for_evse` (l.1387-1402): stored profiles are validated again. -/
def validProfiles (s : State) (ignore : List Purpose) (evse : Int) : List Profile :=
  ((s.rows.filter (fun r => decide (r.evse = evse))).map Row.profile).filterMap fun p =>
    if validate s.env s.rows evse p .set = .valid ∧ ¬ ignore.contains p.purpose then some (conform (s.env.phaseType evse) p) else none

/-! ## Composite schedules of what is stored -/

/-- The purposes in the model of composite schedules; PriorityCharging and LocalGeneration do not count there. -/
def Purpose.toSC2 : Purpose → SC2.Purpose
  | .external => .external
  | .stationMax => .stationMax
  | .txDefault => .txDefault
  | .tx => .tx
  | .priority | .localGeneration => .other

def Kind.toSC2 : Kind → SC2.Kind
  | .absolute => .absolute
  | .recurring => .recurring
  | .relative => .relative
  | .dynamic => .dynamic

def Period.toSC2 (x : Period) : SC2.Period where
  start := x.start
  limit := x.limit.l1
  limitL2 := x.limit.l2
  limitL3 := x.limit.l3
  discharge := x.discharge.l1
  dischargeL2 := x.discharge.l2
  dischargeL3 := x.discharge.l3
  setpoint := x.setpoint.l1
  setpointL2 := x.setpoint.l2
  setpointL3 := x.setpoint.l3
  phases := x.phases
  chargingOnly := decide (x.mode.getD .chargingOnly = .chargingOnly)

/-- The calculation of composite schedules reads the first schedule (`chargingSchedule.front()`, lib/ocpp/v2/profile.cpp). -/
def Profile.toSC2 (p : Profile) : SC2.Profile :=
  let s := p.schedules.headD ⟨.A, none, none, [], none, none, false⟩
  { id := p.id, stack := p.stack, purpose := p.purpose.toSC2, kind := p.kind.toSC2, recur := p.recur, validFrom := p.validFrom,
    validTo := p.validTo, duration := s.duration, startSchedule := s.start, unit := s.unit, periods := s.periods.map Period.toSC2 }

/-- What the calculation of a composite schedule starts from (`generate_evse_intermediates` l.517-530, l.561-600): the valid profiles of
EVSE 0 and of the other EVSEs, and since when they have a transaction (`session`). -/
def stationOf (s : State) (ignore : List Purpose) (session : Nat → Option Int) : SC2.Station where
  profiles := (validProfiles s ignore 0).map Profile.toSC2
  evses := (List.range s.env.evses.length).map fun k => ⟨session (k + 1), (validProfiles s ignore ((k : Int) + 1)).map Profile.toSC2⟩

/-! ## Events -/

/-- What can happen to the store. `addApi` is a call of the public function `conform_validate_and_add_profile`. -/
inductive Op
  | set (now evse : Int) (p : Profile)
  | addApi (now evse : Int) (p : Profile) (source : String)
  | remoteStart (now evse : Int) (p : Profile)
  | clear (id : Option Int) (c : Option Criteria)
  | txStarted (evse : Int) (i : Nat)
  | txEnded (evse : Int)

def setTx (env : Env) (evse : Int) (t : Option Nat) : Env :=
  { env with evses := env.evses.mapIdx fun k e => if (k : Int) + 1 = evse then { e with tx := t } else e }

/-- One event. A transaction ends as in functional_blocks/transaction.cpp l.138. -/
def step (s : State) : Op → State
  | .set now evse p => (handleSet s now evse p).1
  | .addApi now evse p source => (add s now evse p source .set).1
  | .remoteStart now evse p => (add s now evse p "CSO" .remoteStart).1
  | .clear id c => { s with rows := (handleClear s.rows id c).1 }
  | .txStarted evse i => { s with env := setTx s.env evse (some i) }
  | .txEnded evse =>
    match (s.env.evse? evse).bind EvseInfo.tx with
    | none => s
    | some i => { s with env := setTx s.env evse none, rows := deleteTx s.rows i }

def run (s : State) (ops : List Op) : State := ops.foldl step s

/-! ## GetChargingProfiles -/

/-- `ChargingProfileCriterion` and the EVSE of the request. -/
structure Query where
  evse : Option Int := none
  purpose : Option Purpose := none
  stack : Option Int := none
  ids : List Int := []
  sources : List String := []

/-- `get_charging_profiles_matching_criteria` (database_handler.cpp l.877-959). -/
def Query.selects (q : Query) (r : Row) : Bool :=
  q.evse.all (fun e => decide (r.evse = e)) &&
    (if q.ids ≠ [] then q.ids.contains r.profile.id
     else q.purpose.all (fun u => decide (r.profile.purpose = u)) && q.stack.all (fun x => decide (r.profile.stack = x)) &&
       (q.sources.isEmpty || q.sources.contains r.source))

/-- `CiString::operator==`: case-insensitive comparison (cistring.hpp l.53-55). -/
def ieq (a b : String) : Bool := decide (a.toList.map Char.toLower = b.toList.map Char.toLower)

/-- `std::set` of the values: ordered, without duplicates; `CiString::operator<` is case-sensitive (cistring.hpp l.65-67). Here the order
is an arbitrary duplicate-free enumeration. -/
def distinct {α : Type} [DecidableEq α] : List α → List α
  | [] => []
  | a :: rest => if a ∈ distinct rest then distinct rest else a :: distinct rest

/-- `ReportChargingProfilesRequest`. -/
structure Report where
  evse : Int
  source : String
  profiles : List Profile
  tbc : Bool
deriving DecidableEq, Repr

/-- All but the last have tbc = true (l.1202, 1208). -/
def setTbc : List Report → List Report
  | [] => []
  | [r] => [{ r with tbc := false }]
  | r :: rest => { r with tbc := true } :: setTbc rest

/-- `handle_get_charging_profiles_req` (l.1154-1214): the messages sent (none: answer NoProfiles). -/
def reports (rows : List Row) (q : Query) : List Report :=
  let sel := rows.filter q.selects
  let evses := distinct (sel.map Row.evse)
  let sources := distinct (sel.map Row.source)
  setTbc <| evses.flatMap fun e => sources.filterMap fun src =>
    let ps := (sel.filter (fun r => decide (r.evse = e) && ieq r.source src)).map Row.profile
    if ps.isEmpty then none else some ⟨e, src, ps, true⟩

end Verif.PS
