import Verif.SmartCharging.Timeline

/-!
# Composite schedules in OCPP 1.6

Model of `lib/ocpp/v16/profile.cpp` and of the composite schedule part of `lib/ocpp/v16/smart_charging.cpp`.

Simplifications: times are whole seconds (the code floors every `DateTime` it uses); `float` is `Rat`; the two `std::sort` calls
(by date, then by stack level) are one arbitrary sort by stack level.
-/

namespace Verif.SC16
open Verif.SC

/-- `ChargingProfilePurposeType` -/
inductive Purpose | chargePointMax | txDefault | tx
deriving DecidableEq, Repr

/-- `ChargingProfileKindType` -/
inductive Kind | absolute | recurring | relative
deriving DecidableEq, Repr

/-- `RecurrencyKindType` -/
inductive Recur | daily | weekly
deriving DecidableEq, Repr

/-- `ChargingRateUnit` -/
inductive RUnit | A | W
deriving DecidableEq, Repr

/-- `ChargingSchedulePeriod` (include/ocpp/v16/ocpp_types.hpp) -/
structure Period where
  start : Int
  limit : Rat
  phases : Option Int
deriving DecidableEq, Repr

/-- `ChargingProfile` with its `ChargingSchedule` (include/ocpp/v16/ocpp_types.hpp). `minChargingRate` is not used by the
calculation. -/
structure Profile where
  id : Int
  txId : Option Int := none
  stack : Int
  purpose : Purpose
  kind : Kind
  recur : Option Recur := none
  validFrom : Option Int := none
  validTo : Option Int := none
  duration : Option Int := none
  startSchedule : Option Int := none
  unit : RUnit
  periods : List Period
deriving DecidableEq, Repr

/-- Contents of `IntermediatePeriod` (profile.hpp l.22-30); `phaseToUse` is never set. -/
structure IP where
  cur : Rat
  pow : Rat
  stackCur : Int
  stackPow : Int
  phases : Option Int
deriving DecidableEq, Repr

/-- `NO_LIMIT_SPECIFIED` (constants.hpp) -/
def noLimit : Rat := -1

/-- `std::numeric_limits<float>::max()` -/
def fltMax : Rat := 340282346638528859811704183484516925440

/-- The period without limit (profile.cpp l.411, l.452). -/
def gapIP : IP := ⟨noLimit, noLimit, 0, 0, none⟩

/-! ## Start times (profile.cpp l.148-245) -/

/-- Length of a recurrence (profile.cpp l.198-221). -/
def Recur.secs : Recur → Int
  | .daily => 24 * 3600
  | .weekly => 86400 * 7

/-- `while (start <= end)` (profile.cpp l.226-229); `fuel` bounds the iterations. -/
def recurStarts (step stop : Int) : Nat → Int → List Int
  | 0, _ => []
  | fuel + 1, s => if s ≤ stop then s :: recurStarts step stop fuel (s + step) else []

/-- `seconds_to_go_back` (profile.cpp l.198-221): C++ `%` truncates, negative results are shifted. -/
def goBack (step now start : Int) : Int :=
  let r := Int.tmod (now - start) step
  if r < 0 then r + step else r

/-- `calculate_start` (profile.cpp l.148-245). -/
def calcStart (now stop : Int) (session : Option Int) (p : Profile) : List Int :=
  match p.kind with
  | .absolute => [p.startSchedule.getD (p.validFrom.getD now)]
  | .recurring =>
    match p.recur, p.startSchedule with
    | some r, some ss =>
      let s := now - goBack r.secs now ss
      recurStarts r.secs stop (stop - s + 1).toNat s
    | _, _ => []
  | .relative => [session.getD now]

/-! ## Period entries (profile.cpp l.104-145, 254-401) -/

/-- `duration` (profile.cpp l.299-334). -/
def entryDuration (p : Profile) (next : Option Period) (s : Int) (nextStart : Option Int) : Int :=
  let d := intMax
  let d := match next with
    | some n => n.start
    | none => d
  let d := match p.duration with
    | some x => if x < d then x else d
    | none => d
  let d := match nextStart with
    | some ns => if ns - s < d then clampInt (ns - s) else d
    | none => d
  match p.validTo with
  | some vt => if vt - s < d then clampInt (vt - s) else d
  | none => d

/-- `IntermediatePeriod` contents for a chosen entry (profile.cpp l.455-474; the entry itself is filled by
`period_entry_t::init`, l.108-120). -/
def content (p : Profile) (per : Period) : IP :=
  match p.unit with
  | .A => ⟨per.limit, noLimit, p.stack, 0, per.phases⟩
  | .W => ⟨noLimit, per.limit, 0, p.stack, per.phases⟩

/-- `period_entry_t::init` and `validate` (profile.cpp l.108-145). -/
def mkEntry (p : Profile) (per : Period) (s d now : Int) : Option (Entry IP) :=
  let start := s + per.start
  let stop := s + d
  match p.validFrom with
  | some vf =>
    if vf > start then
      if vf ≥ stop then none
      else if stop > vf ∧ stop > now then some ⟨vf, stop, p.stack, content p per⟩ else none
    else if stop > start ∧ stop > now then some ⟨start, stop, p.stack, content p per⟩ else none
  | none => if stop > start ∧ stop > now then some ⟨start, stop, p.stack, content p per⟩ else none

/-- Pairs of a start time and the following one. -/
def withNext : List Int → List (Int × Option Int)
  | [] => []
  | [a] => [(a, none)]
  | a :: b :: rest => (a, some b) :: withNext (b :: rest)

/-- The checks on the period index (profile.cpp l.268-281). -/
def periodOk (p : Profile) (i : Nat) (per : Period) : Bool :=
  if i = 0 then decide (per.start = 0)
  else match p.periods[i-1]? with
    | some prev => decide (prev.start < per.start)
    | none => true

/-- `calculate_profile_entry` (profile.cpp l.254-351). -/
def profileEntry (now stop : Int) (session : Option Int) (p : Profile) (i : Nat) : List (Entry IP) :=
  match p.periods[i]? with
  | none => []
  | some per =>
    if periodOk p i per then
      (withNext (calcStart now stop session p)).filterMap fun sn =>
        mkEntry p per sn.1 (entryDuration p (p.periods[i+1]?) sn.1 sn.2) now
    else []

/-- `calculate_profile_unsorted` (profile.cpp l.354-371). -/
def profileEntries (now stop : Int) (session : Option Int) (p : Profile) : List (Entry IP) :=
  (List.range p.periods.length).flatMap fun i => (profileEntry now stop session p i).filter (fun e => decide (e.start ≤ stop))

/-- `calculate_all_profiles` (profile.cpp l.396-412), without the sort by date. -/
def allEntries (now stop : Int) (session : Option Int) (ps : List Profile) (purpose : Purpose) : List (Entry IP) :=
  (ps.filter (fun p => decide (p.purpose = purpose))).flatMap (profileEntries now stop session)

/-! ## Merging (profile.cpp l.570-668) -/

/-- Combinator of `merge_tx_profile_with_tx_default_profile` (profile.cpp l.573-591). -/
def txComb : List IP → IP
  | [] => gapIP
  | x :: rest => if x.cur ≠ noLimit ∨ x.pow ≠ noLimit then x else txComb rest

def mergeTx (tx txDefault : List (Step IP)) : List (Step IP) := combine gapIP txComb [tx, txDefault]

/-- Copying the number of phases (profile.cpp l.615-621, 652-658). -/
def pickPhases (better : Int → Int → Bool) (acc x : Option Int) : Option Int :=
  match acc with
  | none => x
  | some a => match x with
    | some b => if better b a then some b else some a
    | none => some a

/-- Loop body of the combinator of `merge_profiles_by_lowest_limit` (profile.cpp l.604-622). -/
def lowestStep (acc x : IP) : IP :=
  let acc := if 0 ≤ x.cur ∧ x.cur < acc.cur then { acc with cur := x.cur, stackCur := x.stackCur } else acc
  let acc := if 0 ≤ x.pow ∧ x.pow < acc.pow then { acc with pow := x.pow, stackPow := x.stackPow } else acc
  { acc with phases := pickPhases (fun b a => decide (b < a)) acc.phases x.phases }

/-- Combinator of `merge_profiles_by_lowest_limit` (profile.cpp l.599-635). -/
def lowestComb (xs : List IP) : IP :=
  let r := xs.foldl lowestStep ⟨fltMax, fltMax, 0, 0, none⟩
  let r := if r.cur = fltMax then { r with cur := noLimit, stackCur := 0 } else r
  if r.pow = fltMax then { r with pow := noLimit, stackPow := 0 } else r

def mergeLowest (ps : List (List (Step IP))) : List (Step IP) := combine gapIP lowestComb ps

/-- Combinator of `merge_profiles_by_summing_limits` (profile.cpp l.643-661). -/
def sumComb (curDefault powDefault : Rat) (xs : List IP) : IP :=
  xs.foldl (fun (acc x : IP) =>
    { cur := acc.cur + (if (0 : Rat) ≤ x.cur then x.cur else curDefault),
      pow := acc.pow + (if (0 : Rat) ≤ x.pow then x.pow else powDefault),
      stackCur := 0, stackPow := 0,
      phases := pickPhases (fun b a => decide (b > a)) acc.phases x.phases }) ⟨0, 0, 0, 0, none⟩

def mergeSum (curDefault powDefault : Rat) (ps : List (List (Step IP))) : List (Step IP) :=
  combine gapIP (sumComb curDefault powDefault) ps

/-! ## Conversion (profile.cpp l.670-716) -/

/-- Contents of `EnhancedChargingSchedulePeriod` (include/ocpp/v16/types.hpp). -/
structure Out where
  limit : Rat
  phases : Option Int
  stackLevel : Int
  transformed : Bool
deriving DecidableEq, Repr

/-- Body of the loop (profile.cpp l.676-707). -/
def convert (unit : RUnit) (defaultLimit : Rat) (defaultPhases : Int) (voltage : Rat) (x : IP) : Out :=
  if x.cur = noLimit ∧ x.pow = noLimit then ⟨defaultLimit, x.phases, 0, false⟩
  else
    let tv := voltage * ((x.phases.getD defaultPhases : Int) : Rat)
    let o : Out := ⟨fltMax, x.phases, 0, false⟩
    match unit with
    | .A =>
      let o := if x.cur ≠ noLimit then { o with limit := x.cur, stackLevel := x.stackCur, transformed := false } else o
      if x.pow ≠ noLimit ∧ x.pow / tv < o.limit then
        { o with limit := x.pow / tv, stackLevel := x.stackPow, transformed := true }
      else o
    | .W =>
      let o := if x.pow ≠ noLimit then { o with limit := x.pow, stackLevel := x.stackPow, transformed := false } else o
      if x.cur ≠ noLimit ∧ x.cur * tv < o.limit then
        { o with limit := x.cur * tv, stackLevel := x.stackCur, transformed := true }
      else o

/-- Appending only if something relevant differs from the previous period (profile.cpp l.709-713). -/
def dedup : Option Out → List (Step Out) → List (Step Out)
  | _, [] => []
  | last, s :: rest =>
    match last with
    | some l => if s.val.limit ≠ l.limit ∨ s.val.phases ≠ l.phases ∨ s.val.stackLevel ≠ l.stackLevel then
        s :: dedup (some s.val) rest
      else dedup last rest
    | none => s :: dedup (some s.val) rest

/-- `convert_intermediate_into_schedule`. -/
def convertAll (unit : RUnit) (defaultLimit : Rat) (defaultPhases : Int) (voltage : Rat) (l : List (Step IP)) : List (Step Out) :=
  dedup none (l.map fun s => ⟨s.start, convert unit defaultLimit defaultPhases voltage s.val⟩)

/-! ## The handler (smart_charging.cpp) -/

/-- A running transaction of a connector: its id and start time. -/
structure Tx where
  id : Int
  start : Int
deriving DecidableEq, Repr

/-- `Connector`: transaction and the two stack-level maps (as lists of their values in key order). -/
structure Connector where
  tx : Option Tx
  txDefault : List Profile
  txProfiles : List Profile
deriving DecidableEq, Repr

/-- `CompositeScheduleConfig` (smart_charging.cpp l.139-167). `ignore` is empty when online. -/
structure Config where
  ignore : List Purpose := []
  currentLimit : Rat := 48
  powerLimit : Rat := 33120
  phases : Int := 3
  voltage : Rat := 230

/-- The handler's state: ChargePointMaxProfiles and the connectors 1, 2, … -/
structure Handler where
  cpMax : List Profile
  connectors : List Connector

/-- Which TxProfiles of a connector count (smart_charging.cpp l.551-570). -/
def txProfileApplies (tx : Option Tx) (p : Profile) : Bool :=
  match p.txId with
  | some i => match tx with
    | some t => decide (t.id = i)
    | none => false
  | none => true

/-- `get_valid_profiles` (smart_charging.cpp l.520-584) for connector `c` (`none`: connector 0, or one that does not exist). -/
def validProfiles (cfg : Config) (h : Handler) (c : Option Connector) : List Profile :=
  (if Purpose.chargePointMax ∈ cfg.ignore then [] else h.cpMax) ++
  (match c with
   | none => []
   | some c =>
     (if Purpose.tx ∈ cfg.ignore then [] else c.txProfiles.filter (txProfileApplies c.tx)) ++
     (if Purpose.txDefault ∈ cfg.ignore then [] else c.txDefault))

/-- A sort function for every call. -/
abbrev Sorter := List (Entry IP) → List (Entry IP)

/-- `generate_evse_intermediates` (smart_charging.cpp l.169-199). -/
def evseIntermediates (sort : Sorter) (evseProfiles stationProfiles : List Profile) (now stop : Int) (session : Option Int)
    (simulate : Bool) : List (List (Step IP)) :=
  let ps := evseProfiles ++ stationProfiles
  if session.isSome || simulate then
    let txd := generate sort (allEntries now stop session ps .txDefault) now stop gapIP
    let tx := generate sort (allEntries now stop session ps .tx) now stop gapIP
    [mergeTx tx txd]
  else []

/-- Start time of the transaction of a connector (l.231-237, 249-253). -/
def Connector.session (c : Connector) : Option Int := c.tx.map Tx.start

/-- The intermediate result for one connector (l.267-270) and the profile with the ChargePointMax limits (l.273-281),
combined by lowest limit. -/
def connectorLimits (sort : Sorter) (cfg : Config) (h : Handler) (c : Option Connector) (now stop : Int) (simulate : Bool) :
    List (Step IP) :=
  let station := validProfiles cfg h none
  let session := c.bind Connector.session
  let combined := evseIntermediates sort (validProfiles cfg h c) station now stop session simulate
  let cpm := generate sort (allEntries now stop session station .chargePointMax) now stop gapIP
  mergeLowest (combined ++ [cpm])

/-- The same for the whole station (l.242-264). `session` of the last connector is used for the ChargePointMax profiles. -/
def stationLimits (sort : Sorter) (cfg : Config) (h : Handler) (now stop : Int) (simulate : Bool) : List (Step IP) :=
  let station := validProfiles cfg h none
  let evses := h.connectors.map fun c =>
    mergeLowest (evseIntermediates sort (validProfiles cfg h (some c)) station now stop c.session simulate)
  let session := h.connectors.getLast?.bind Connector.session
  let cpm := generate sort (allEntries now stop session station .chargePointMax) now stop gapIP
  mergeLowest [mergeSum cfg.currentLimit cfg.powerLimit evses, cpm]

/-- `calculate_enhanced_composite_schedule` (smart_charging.cpp l.222-299): the periods of the schedule for connector `evse`. -/
def composite (sort : Sorter) (cfg : Config) (h : Handler) (evse : Nat) (unit : RUnit) (now stop : Int) (simulate : Bool) :
    List (Step Out) :=
  let limits :=
    if evse = 0 then stationLimits sort cfg h now stop simulate
    else connectorLimits sort cfg h (h.connectors[evse-1]?) now stop simulate
  let default := match unit with
    | .A => cfg.currentLimit
    | .W => cfg.powerLimit
  convertAll unit default cfg.phases cfg.voltage limits

/-- `calculate_composite_schedule` (smart_charging.cpp l.202-220) drops everything but limit and phases. -/
def plainComposite (sort : Sorter) (cfg : Config) (h : Handler) (evse : Nat) (unit : RUnit) (now stop : Int) (simulate : Bool) :
    List (Step (Rat × Option Int)) :=
  (composite sort cfg h evse unit now stop simulate).map fun s => ⟨s.start, (s.val.limit, s.val.phases)⟩

end Verif.SC16
