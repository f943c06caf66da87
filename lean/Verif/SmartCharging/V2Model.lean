import Verif.SmartCharging.V16Model

/-!
# Composite schedules in OCPP 2.x

Model of `lib/ocpp/v2/profile.cpp` and of the composite schedule part of `lib/ocpp/v2/functional_blocks/smart_charging.cpp`.

Simplifications: times are whole seconds (the code floors every `DateTime` it uses); `float` is `Rat`; `is_equal` (difference below the
epsilon of `double`) is equality; only the first charging schedule of a profile is represented because only `chargingSchedule.front()`
is used; `RUnit`, `pickPhases` and two constants are shared with the model of 1.6, which has the same code; the two `std::sort` calls (by date, then by stack level) are one arbitrary sort by stack level.
-/

namespace Verif.SC2
open Verif.SC
open Verif.SC16 (RUnit fltMax noLimit pickPhases)

/-- `ChargingProfilePurposeEnum`; PriorityCharging and LocalGeneration are not used by the calculation. -/
inductive Purpose | external | stationMax | txDefault | tx | other
deriving DecidableEq, Repr

/-- `ChargingProfileKindEnum` -/
inductive Kind | absolute | recurring | relative | dynamic
deriving DecidableEq, Repr

/-- `RecurrencyKindEnum` -/
inductive Recur | daily | weekly
deriving DecidableEq, Repr

/-- `ChargingSchedulePeriod` (include/ocpp/v2/ocpp_types.hpp). `chargingOnly` is "operationMode absent or ChargingOnly". -/
structure Period where
  start : Int
  limit : Option Rat
  limitL2 : Option Rat := none
  limitL3 : Option Rat := none
  discharge : Option Rat := none
  dischargeL2 : Option Rat := none
  dischargeL3 : Option Rat := none
  setpoint : Option Rat := none
  setpointL2 : Option Rat := none
  setpointL3 : Option Rat := none
  phases : Option Int := none
  chargingOnly : Bool := true
deriving DecidableEq, Repr

/-- `ChargingProfile` with its first `ChargingSchedule`. -/
structure Profile where
  id : Int
  stack : Int
  purpose : Purpose
  kind : Kind
  recur : Option Recur := none
  validFrom : Option Int := none
  validTo : Option Int := none
  duration : Option Int := none
  startSchedule : Option Int := none
  unit : RUnit
  periods : List Period
deriving DecidableEq, Repr

/-- `PeriodLimit` (profile.hpp l.9-15). -/
structure PL where
  l1 : Rat
  l2 : Rat
  l3 : Rat
deriving DecidableEq, Repr

/-- Contents of `IntermediatePeriod` (profile.hpp l.17-27); `phaseToUse` is never set. -/
structure IP where
  cur : PL
  pow : PL
  disCur : PL
  disPow : PL
  setCur : PL
  setPow : PL
  phases : Option Int
deriving DecidableEq, Repr

/-- constants.hpp l.18-25. `noLimit` (-1) and `fltMax` are those of 1.6. -/
def noSetpoint : Rat := fltMax
def noDischarge : Rat := -fltMax
def defaultAmps : Rat := 48
def defaultWatts : Rat := 33120

def PL.all (x : Rat) : PL := ⟨x, x, x⟩

/-- `default_intermediate_period` (profile.cpp l.52-72). -/
def gapIP : IP := ⟨.all noLimit, .all noLimit, .all noDischarge, .all noDischarge, .all noSetpoint, .all noSetpoint, none⟩

/-! ## Start times (profile.cpp l.146-241) -/

/-- Length of a recurrence (profile.cpp l.197-218). -/
def Recur.secs : Recur → Int
  | .daily => 24 * 3600
  | .weekly => 86400 * 7

/-- `while (start <= end)` (profile.cpp l.222-225); `fuel` bounds the iterations. -/
def recurStarts (step stop : Int) : Nat → Int → List Int
  | 0, _ => []
  | fuel + 1, s => if s ≤ stop then s :: recurStarts step stop fuel (s + step) else []

/-- `seconds_to_go_back` (profile.cpp l.197-218): C++ `%` truncates, negative results are shifted. -/
def goBack (step now start : Int) : Int :=
  let r := Int.tmod (now - start) step
  if r < 0 then r + step else r

/-- `calculate_start` (profile.cpp l.146-241). -/
def calcStart (now stop : Int) (session : Option Int) (p : Profile) : List Int :=
  match p.kind with
  | .absolute => [p.startSchedule.getD (p.validFrom.getD now)]
  | .recurring =>
    match p.recur, p.startSchedule with
    | some r, some ss =>
      let s := now - goBack r.secs now ss
      recurStarts r.secs stop (stop - s + 1).toNat s
    | _, _ => []
  | .relative => [session.getD now]
  | .dynamic => [now]

/-! ## Period entries (profile.cpp l.84-138, 243-387) -/

/-- `duration` (profile.cpp l.285-316). -/
def entryDuration (p : Profile) (next : Option Period) (s : Int) (nextStart : Option Int) : Int :=
  let d := intMax
  let d := match next with
    | some n => n.start
    | none => d
  let d := match p.duration with
    | some x => if x < d then x else d
    | none => d
  let d := match nextStart with
    | some ns => if ns - s < d then clampInt (ns - s) else d
    | none => d
  match p.validTo with
  | some vt => if vt - s < d then clampInt (vt - s) else d
  | none => d

/-- The limit of an entry (`period_entry_t::init`, profile.cpp l.95-105). -/
def entryLimit (p : Profile) (per : Period) : PL :=
  let l1 := match per.limit with
    | some x => x
    | none => if per.chargingOnly then (match p.unit with | .A => defaultAmps | .W => defaultWatts) else noLimit
  ⟨l1, per.limitL2.getD noLimit, per.limitL3.getD noLimit⟩

/-- Discharge limits and setpoints of an entry (`period_entry_t::init`, profile.cpp l.107-113) -/
def entryDischarge (per : Period) : PL :=
  ⟨per.discharge.getD noDischarge, per.dischargeL2.getD noDischarge, per.dischargeL3.getD noDischarge⟩

def entrySetpoint (per : Period) : PL :=
  ⟨per.setpoint.getD noSetpoint, per.setpointL2.getD noSetpoint, per.setpointL3.getD noSetpoint⟩

/-- `IntermediatePeriod` contents for a chosen entry (profile.cpp l.434-468). -/
def content (p : Profile) (per : Period) : IP :=
  match p.unit with
  | .A => { gapIP with cur := entryLimit p per, disCur := entryDischarge per, setCur := entrySetpoint per, phases := per.phases }
  | .W => { gapIP with pow := entryLimit p per, disPow := entryDischarge per, setPow := entrySetpoint per, phases := per.phases }

/-- `period_entry_t::init` and `validate` (profile.cpp l.84-138). -/
def mkEntry (p : Profile) (per : Period) (s d now : Int) : Option (Entry IP) :=
  let start := s + per.start
  let stop := s + d
  match p.validFrom with
  | some vf =>
    if vf > start then
      if vf ≥ stop then none
      else if stop > vf ∧ stop > now then some ⟨vf, stop, p.stack, content p per⟩ else none
    else if stop > start ∧ stop > now then some ⟨start, stop, p.stack, content p per⟩ else none
  | none => if stop > start ∧ stop > now then some ⟨start, stop, p.stack, content p per⟩ else none

/-- Pairs of a start time and the following one. -/
def withNext : List Int → List (Int × Option Int)
  | [] => []
  | [a] => [(a, none)]
  | a :: b :: rest => (a, some b) :: withNext (b :: rest)

/-- The checks on the period index (profile.cpp l.254-264). -/
def periodOk (p : Profile) (i : Nat) (per : Period) : Bool :=
  if i = 0 then decide (per.start = 0)
  else match p.periods[i-1]? with
    | some prev => decide (prev.start < per.start)
    | none => true

/-- `calculate_profile_entry` (profile.cpp l.243-331). -/
def profileEntry (now stop : Int) (session : Option Int) (p : Profile) (i : Nat) : List (Entry IP) :=
  match p.periods[i]? with
  | none => []
  | some per =>
    if periodOk p i per then
      (withNext (calcStart now stop session p)).filterMap fun sn =>
        mkEntry p per sn.1 (entryDuration p (p.periods[i+1]?) sn.1 sn.2) now
    else []

/-- `calculate_profile_unsorted` (profile.cpp l.334-351). -/
def profileEntries (now stop : Int) (session : Option Int) (p : Profile) : List (Entry IP) :=
  (List.range p.periods.length).flatMap fun i => (profileEntry now stop session p i).filter (fun e => decide (e.start ≤ stop))

/-- `calculate_all_profiles` (profile.cpp l.373-387), without the sort by date. -/
def allEntries (now stop : Int) (session : Option Int) (ps : List Profile) (purpose : Purpose) : List (Entry IP) :=
  (ps.filter (fun p => decide (p.purpose = purpose))).flatMap (profileEntries now stop session)

/-! ## Merging (profile.cpp l.569-753, helpers l.833-1057) -/

/-- Combinator of `merge_tx_profile_with_tx_default_profile` (profile.cpp l.571-601). -/
def txComb : List IP → IP
  | [] => gapIP
  | x :: rest =>
    if x.cur ≠ gapIP.cur ∨ x.pow ≠ gapIP.pow ∨ x.disCur ≠ gapIP.disCur ∨ x.disPow ≠ gapIP.disPow ∨
       x.setCur ≠ gapIP.setCur ∨ x.setPow ≠ gapIP.setPow then x
    else txComb rest

def mergeTx (tx txDefault : List (Step IP)) : List (Step IP) := combine gapIP txComb [tx, txDefault]

/-- `uses_three_phase_values` (profile.cpp l.1042-1055). -/
def threePhase (x : IP) : Bool :=
  decide (x.cur.l2 ≠ noLimit) || decide (x.cur.l3 ≠ noLimit) || decide (x.pow.l2 ≠ noLimit) || decide (x.pow.l3 ≠ noLimit) ||
  decide (x.disCur.l2 ≠ noDischarge) || decide (x.disCur.l3 ≠ noDischarge) ||
  decide (x.disPow.l2 ≠ noDischarge) || decide (x.disPow.l3 ≠ noDischarge) ||
  decide (x.setCur.l2 ≠ noSetpoint) || decide (x.setCur.l3 ≠ noSetpoint) ||
  decide (x.setPow.l2 ≠ noSetpoint) || decide (x.setPow.l3 ≠ noSetpoint)

/-- Single phase part of `set_setpoint_limit_phase_values` (profile.cpp l.866-892), for one `PeriodLimit`. -/
def singlePhase (none' : Rat) (x : PL) : PL :=
  if x.l1 ≠ none' then
    let x := if x.l2 ≠ none' then { x with l1 := min x.l1 x.l2, l2 := none' } else x
    if x.l3 ≠ none' then { x with l1 := min x.l1 x.l3, l3 := none' } else x
  else x

/-- `set_setpoint_limit_phase_values` (profile.cpp l.855-912) for OCPP 2.1. -/
def phaseValues (none' : Rat) (phases : Option Int) (cur pow : PL) : PL × PL :=
  match phases with
  | none => (cur, pow)
  | some n =>
    if n = 1 then (singlePhase none' cur, singlePhase none' pow)
    else if n < 1 then (cur, pow)
    else
      let cur := if cur.l1 ≠ none' ∧ (cur.l2 = none' ∨ cur.l3 = none') then ⟨cur.l1, cur.l1, cur.l1⟩ else cur
      let pow := if pow.l1 ≠ none' ∧ (pow.l2 = none' ∨ pow.l3 = none') then
        ⟨pow.l1 / (n : Rat), pow.l1 / (n : Rat), pow.l1 / (n : Rat)⟩ else pow
      (cur, pow)

def allPhaseValues (phases : Option Int) (x : IP) : IP :=
  let (c, p) := phaseValues noLimit phases x.cur x.pow
  let (dc, dp) := phaseValues noDischarge phases x.disCur x.disPow
  let (sc, sp) := phaseValues noSetpoint phases x.setCur x.setPow
  ⟨c, p, dc, dp, sc, sp, x.phases⟩

/-- `get_max_limit` (profile.cpp l.921-932). -/
def getMax (a b : Rat) (cap : Option Rat) : Rat :=
  let l := if b < 0 then max a b else a
  match cap with
  | some c => max l c
  | none => l

/-- `get_min_limit` (profile.cpp l.959-970). -/
def getMin (a b : Rat) (cap : Option Rat) : Rat :=
  let l := if 0 ≤ b then min a b else a
  match cap with
  | some c => min l c
  | none => l

/-- `get_max_limit`, `get_min_limit` on the three phases (profile.cpp l.941-950, 979-988) -/
def getMaxPL (a b : PL) (cap : Option PL) : PL :=
  ⟨getMax a.l1 b.l1 (cap.map PL.l1), getMax a.l2 b.l2 (cap.map PL.l2), getMax a.l3 b.l3 (cap.map PL.l3)⟩

def getMinPL (a b : PL) (cap : Option PL) : PL :=
  ⟨getMin a.l1 b.l1 (cap.map PL.l1), getMin a.l2 b.l2 (cap.map PL.l2), getMin a.l3 b.l3 (cap.map PL.l3)⟩

/-- `get_set_setpoint_limit` (profile.cpp l.1004-1035). -/
def setSetpoint (s1 s2 cap capDis : PL) : PL :=
  if s2.l1 ≠ noSetpoint ∨ s1.l1 ≠ noSetpoint then
    let s1 :=
      if s2.l1 ≠ noSetpoint ∧ s1.l1 ≠ noSetpoint then
        (if s1.l1 < 0 then { s1 with l1 := max s1.l1 s2.l1 } else { s1 with l1 := min s1.l1 s2.l1 })
      else if s2.l1 ≠ noSetpoint then { s1 with l1 := s2.l1 }
      else s1
    if s1.l1 < 0 then getMaxPL s1 s2 (some capDis) else getMinPL s1 s2 (some cap)
  else s1

/-- Loop body of the combinator of `merge_profiles_by_lowest_limit` (profile.cpp l.639-661). -/
def lowestStep (three : Bool) (phases : Option Int) (acc x : IP) : IP :=
  let x := if three then allPhaseValues phases x else x
  let cur := getMinPL acc.cur x.cur none
  let pow := getMinPL acc.pow x.pow none
  let disCur := getMaxPL acc.disCur x.disCur none
  let disPow := getMaxPL acc.disPow x.disPow none
  ⟨cur, pow, disCur, disPow, setSetpoint acc.setCur x.setCur cur disCur, setSetpoint acc.setPow x.setPow pow disPow, acc.phases⟩

/-- `replace_max_with_no_limit` (profile.cpp l.663-673) -/
def replaceMax (x : PL) (m r : Rat) : PL :=
  ⟨if x.l1 = m then r else x.l1, if x.l2 = m then r else x.l2, if x.l3 = m then r else x.l3⟩

/-- Lowest number of phases (profile.cpp l.628-632). -/
def lowestPhasesOf (xs : List IP) : Option Int := xs.foldl (fun acc x => pickPhases (fun b a => decide (b < a)) acc x.phases) none

/-- Combinator of `merge_profiles_by_lowest_limit` (profile.cpp l.611-685). `v21` is the protocol version. -/
def lowestComb (v21 : Bool) (xs : List IP) : IP :=
  let phases := lowestPhasesOf xs
  let three := v21 && xs.any threePhase
  let r := xs.foldl (lowestStep three phases)
    ⟨.all fltMax, .all fltMax, .all noDischarge, .all noDischarge, .all fltMax, .all fltMax, phases⟩
  { r with
    cur := replaceMax r.cur fltMax noLimit
    pow := replaceMax r.pow fltMax noLimit
    setCur := replaceMax r.setCur fltMax noSetpoint
    setPow := replaceMax r.setPow fltMax noSetpoint }

def mergeLowest (v21 : Bool) (ps : List (List (Step IP))) : List (Step IP) := combine gapIP (lowestComb v21) ps

/-- Loop body of the combinator of `merge_profiles_by_summing_limits` (profile.cpp l.717-749). -/
def sumStep (three : Bool) (phases : Option Int) (curDefault powDefault : Rat) (acc x : IP) : IP :=
  let x := if three then allPhaseValues phases x else x
  let add (a b d : Rat) : Rat := a + (if 0 ≤ b then b else d)
  { acc with
    cur := ⟨add acc.cur.l1 x.cur.l1 curDefault,
      if three then add acc.cur.l2 x.cur.l2 curDefault else noLimit,
      if three then add acc.cur.l3 x.cur.l3 curDefault else noLimit⟩
    pow := ⟨add acc.pow.l1 x.pow.l1 powDefault,
      if three then add acc.pow.l2 x.pow.l2 powDefault else noLimit,
      if three then add acc.pow.l3 x.pow.l3 powDefault else noLimit⟩ }

/-- Highest number of phases (profile.cpp l.704-709). -/
def highestPhasesOf (xs : List IP) : Option Int := xs.foldl (fun acc x => pickPhases (fun b a => decide (b > a)) acc x.phases) none

/-- Combinator of `merge_profiles_by_summing_limits` (profile.cpp l.693-751). The discharge limits are value-initialised. -/
def sumComb (v21 : Bool) (curDefault powDefault : Rat) (xs : List IP) : IP :=
  let phases := highestPhasesOf xs
  let three := v21 && xs.any threePhase
  xs.foldl (sumStep three phases curDefault powDefault)
    ⟨.all 0, .all 0, .all 0, .all 0, .all noSetpoint, .all noSetpoint, phases⟩

def mergeSum (v21 : Bool) (curDefault powDefault : Rat) (ps : List (List (Step IP))) : List (Step IP) :=
  combine gapIP (sumComb v21 curDefault powDefault) ps

/-! ## Conversion (profile.cpp l.756-829, helpers l.1065-1151) -/

/-- Contents of a `ChargingSchedulePeriod` of the composite schedule. -/
structure Out where
  limit : Rat
  limitL2 : Option Rat
  limitL3 : Option Rat
  discharge : Option Rat
  dischargeL2 : Option Rat
  dischargeL3 : Option Rat
  setpoint : Option Rat
  setpointL2 : Option Rat
  setpointL3 : Option Rat
  phases : Option Int
deriving DecidableEq, Repr

/-- One value of `store_limit_to_phase_limits` (profile.cpp l.1065-1079). -/
def store (x none' : Rat) (v : Option Rat) : Option Rat := if x ≠ none' then some x else v

/-- `convert_and_transform_limit_value` (profile.cpp l.1094-1114). -/
def transform (x none' t : Rat) (v : Option Rat) (useMin divide : Bool) : Option Rat :=
  if x ≠ none' then
    let y := if divide then x / t else x * t
    match v with
    | some a => some (if useMin then min a y else max a y)
    | none => some y
  else v

/-- `store_limit_to_phase_limits` followed by `convert_and_transform_limit_to_period_schedule` (profile.cpp l.1065-1079, 1136-1151). -/
def both (direct other : PL) (none' v : Rat) (phases : Int) (init : Option Rat) (useMin divide : Bool) : Option Rat × Option Rat × Option Rat :=
  let t := if other.l2 = none' ∨ other.l3 = none' then v * (phases : Rat) else v
  (transform other.l1 none' t (store direct.l1 none' init) useMin divide,
   transform other.l2 none' t (store direct.l2 none' none) useMin divide,
   transform other.l3 none' t (store direct.l3 none' none) useMin divide)

/-- Body of the loop of `convert_intermediate_into_schedule` (profile.cpp l.762-818). -/
def convert (unit : RUnit) (defaultLimit : Rat) (defaultPhases : Int) (voltage : Rat) (x : IP) : Out :=
  let init := if x.cur.l1 = noLimit ∧ x.pow.l1 = noLimit then defaultLimit else fltMax
  let n := x.phases.getD defaultPhases
  let (l, d, s) := match unit with
    | .A => (both x.cur x.pow noLimit voltage n (some init) true true,
             both x.disCur x.disPow noDischarge voltage n none false true,
             both x.setCur x.setPow noSetpoint voltage n none true true)
    | .W => (both x.pow x.cur noLimit voltage n (some init) true false,
             both x.disPow x.disCur noDischarge voltage n none false false,
             both x.setPow x.setCur noSetpoint voltage n none true false)
  ⟨l.1.getD init, l.2.1, l.2.2, d.1, d.2.1, d.2.2, s.1, s.2.1, s.2.2, x.phases⟩

/-- Appending only if something the code compares differs from the previous period (profile.cpp l.820-824). -/
def dedup : Option Out → List (Step Out) → List (Step Out)
  | _, [] => []
  | last, s :: rest =>
    match last with
    | some l => if s.val.limit ≠ l.limit ∨ s.val.phases ≠ l.phases ∨ s.val.setpoint ≠ l.setpoint ∨ s.val.discharge ≠ l.discharge then
        s :: dedup (some s.val) rest
      else dedup last rest
    | none => s :: dedup (some s.val) rest

/-- `convert_intermediate_into_schedule`. -/
def convertAll (unit : RUnit) (defaultLimit : Rat) (defaultPhases : Int) (voltage : Rat) (l : List (Step IP)) : List (Step Out) :=
  dedup none (l.map fun s => ⟨s.start, convert unit defaultLimit defaultPhases voltage s.val⟩)

/-! ## `calculate_composite_schedule` (smart_charging.cpp l.486-627) -/

/-- `CompositeScheduleConfig` (l.487-515) without the purposes to ignore, and the protocol version. -/
structure Config where
  v21 : Bool := false
  currentLimit : Rat := 48
  powerLimit : Rat := 33120
  phases : Int := 3
  voltage : Rat := 230

/-- An EVSE: start time of its transaction and the profiles that `get_valid_profiles_for_evse` returns for it. -/
structure Evse where
  session : Option Int
  profiles : List Profile

/-- The station: what `get_valid_profiles_for_evse` returns for EVSE 0, and the EVSEs 1, 2, … -/
structure Station where
  profiles : List Profile
  evses : List Evse

abbrev Sorter := List (Entry IP) → List (Entry IP)

/-- `generate_evse_intermediates` (l.517-550). -/
def evseIntermediates (sort : Sorter) (evseProfiles stationProfiles : List Profile) (now stop : Int) (session : Option Int)
    (simulate : Bool) : List (List (Step IP)) :=
  let ps := evseProfiles ++ stationProfiles
  let ext := generate sort (allEntries now stop session ps .external) now stop gapIP
  if session.isSome || simulate then
    let txd := generate sort (allEntries now stop session ps .txDefault) now stop gapIP
    let tx := generate sort (allEntries now stop session ps .tx) now stop gapIP
    [ext, mergeTx tx txd]
  else [ext]

/-- One EVSE (l.596-612). -/
def evseLimits (sort : Sorter) (cfg : Config) (s : Station) (e : Evse) (now stop : Int) (simulate : Bool) : List (Step IP) :=
  mergeLowest cfg.v21 (evseIntermediates sort e.profiles s.profiles now stop e.session simulate ++
    [generate sort (allEntries now stop e.session s.profiles .stationMax) now stop gapIP])

/-- The whole station (l.572-595, 600-612). -/
def stationLimits (sort : Sorter) (cfg : Config) (s : Station) (now stop : Int) (simulate : Bool) : List (Step IP) :=
  let evses := s.evses.map fun e => mergeLowest cfg.v21 (evseIntermediates sort e.profiles s.profiles now stop e.session simulate)
  let session := s.evses.getLast?.bind Evse.session
  mergeLowest cfg.v21 [mergeSum cfg.v21 cfg.currentLimit cfg.powerLimit evses,
    generate sort (allEntries now stop session s.profiles .stationMax) now stop gapIP]

/-- `calculate_composite_schedule` (l.553-627) for an existing EVSE. -/
def composite (sort : Sorter) (cfg : Config) (s : Station) (evse : Nat) (unit : RUnit) (now stop : Int) (simulate : Bool) :
    List (Step Out) :=
  let limits :=
    if evse = 0 then stationLimits sort cfg s now stop simulate
    else match s.evses[evse-1]? with
      | some e => evseLimits sort cfg s e now stop simulate
      | none => []
  let default := match unit with
    | .A => cfg.currentLimit
    | .W => cfg.powerLimit
  convertAll unit default cfg.phases cfg.voltage limits

end Verif.SC2
