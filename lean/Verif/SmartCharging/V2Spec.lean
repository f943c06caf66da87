import Verif.SmartCharging.V2Model
import Verif.SmartCharging.V16Spec

/-!
# What a set of 2.x charging profiles means at an instant

This file is the specification used by the theorems; it does not use the calculation in `V2Model`, only its data types.
-/

namespace Verif.SC2
open Verif.SC
open Verif.SC16 (RUnit Limit lowestPhases highestPhases IsMin)

/-- The instant from which the schedule of `p` counts at instant `t`. Absolute: the start of the schedule. Relative: the start of the
session. Recurring: the latest instant not after `t` that differs from the start of the schedule by a multiple of the recurrence.
Dynamic: the beginning of the window. -/
def Profile.startAt (p : Profile) (session : Option Int) (now t : Int) : Option Int :=
  match p.kind with
  | .absolute => some (p.startSchedule.getD (p.validFrom.getD now))
  | .relative => some (session.getD now)
  | .dynamic => some now
  | .recurring =>
    match p.recur, p.startSchedule with
    | some .daily, some ss => some (t - (t - ss) % 86400)
    | some .weekly, some ss => some (t - (t - ss) % 604800)
    | _, _ => none

/-- The last period that has started `off` seconds after the start of the schedule. -/
def Profile.periodAt (p : Profile) (off : Int) : Option Period :=
  (p.periods.filter (fun x => decide (x.start ≤ off))).getLast?

/-- The period of `p` in force at instant `t`, if any: the schedule has started, its duration is not over, and `t` is in the
validity interval of the profile. ("Forever" is `intMax` seconds.) -/
def Profile.inForce (p : Profile) (session : Option Int) (now t : Int) : Option Period :=
  match p.startAt session now t with
  | none => none
  | some s =>
    if s ≤ t ∧ t < s + p.duration.getD intMax ∧ t < s + intMax ∧ p.validFrom.getD t ≤ t ∧ t < p.validTo.getD (t + 1) then
      p.periodAt (t - s)
    else none

/-- The period list of a profile is in order: it starts with offset 0 and offsets increase. -/
structure Profile.Ordered (p : Profile) : Prop where
  first : ∃ a rest, p.periods = a :: rest ∧ a.start = 0
  increasing : p.periods.Pairwise (fun a b => a.start < b.start)
  small : ∀ x ∈ p.periods, x.start ≤ intMax

/-- `r` says which profile of the collection `S` decides at `t`: nothing if none of them is in force, otherwise one that is in
force and has the highest stack level among those in force. -/
def Decides (S : Profile → Prop) (session : Option Int) (now t : Int) (r : Option (Profile × Period)) : Prop :=
  match r with
  | none => ∀ p, S p → p.inForce session now t = none
  | some (p, per) => S p ∧ p.inForce session now t = some per ∧ ∀ q, S q → q.inForce session now t ≠ none → q.stack ≤ p.stack

/-- The charging limit of a period. Without a limit a period that only charges is limited to 48 A or 33120 W, and a period in another
operation mode is not limited. -/
def limitValue (p : Profile) (per : Period) : Option Rat :=
  match per.limit with
  | some x => some x
  | none => if per.chargingOnly then some (match p.unit with | .A => 48 | .W => 33120) else none

/-- The period says something about charging or discharging. -/
def specifies (r : Profile × Period) : Bool := (limitValue r.1 r.2).isSome || r.2.discharge.isSome || r.2.setpoint.isSome

/-- Profiles of EVSE `e` with a purpose: its own and those of the whole station. -/
def Counts (s : Station) (e : Evse) (u : Purpose) (p : Profile) : Prop := p ∈ e.profiles ++ s.profiles ∧ p.purpose = u

/-- ChargingStationMaxProfiles. -/
def StationMax (s : Station) (p : Profile) : Prop := p ∈ s.profiles ∧ p.purpose = .stationMax

/-- `r` is the transaction profile of an EVSE at `t`: that of its TxProfiles if one is in force and says something, else that of
its TxDefaultProfiles; none if there is no transaction and none is simulated. -/
def TxDecides (s : Station) (e : Evse) (simulate : Bool) (now t : Int) (r : Option (Profile × Period)) : Prop :=
  if e.session ≠ none ∨ simulate = true then
    ∃ a b, Decides (Counts s e .tx) e.session now t a ∧ Decides (Counts s e .txDefault) e.session now t b ∧
      r = (a.toList ++ b.toList).find? specifies
  else r = none

/-- One thing that constrains the composite schedule. -/
structure Constraint where
  unit : RUnit
  limit : Option Rat
  discharge : Option Rat
  setpoint : Option Rat
  phases : Option Int

def constraintOf (r : Profile × Period) : Constraint := ⟨r.1.unit, limitValue r.1 r.2, r.2.discharge, r.2.setpoint, r.2.phases⟩

/-- A value in `u` expressed in `unit` for a given voltage and number of phases. -/
def inUnit (u unit : RUnit) (voltage : Rat) (phases : Int) (x : Rat) : Rat := (⟨u, x, none⟩ : Limit).inUnit unit voltage phases

/-- The limit that applies when no profile does. -/
def configuredDefault (cfg : Config) : RUnit → Rat
  | .A => cfg.currentLimit
  | .W => cfg.powerLimit

/-- `o` applies the constraints `cs`: the configured default limit if none of them has a limit, and otherwise the lowest limit,
converted to the requested unit with the lowest number of phases. -/
def Applies (cfg : Config) (unit : RUnit) (cs : List Constraint) (o : Out) : Prop :=
  let ph := lowestPhases (cs.map Constraint.phases)
  let vs := cs.filterMap fun c => c.limit.map (inUnit c.unit unit cfg.voltage (ph.getD cfg.phases))
  o.phases = ph ∧ (vs = [] → o.limit = configuredDefault cfg unit) ∧ (vs ≠ [] → IsMin o.limit vs)

/-- The discharge limits of the constraints that satisfy `keep`, in `unit`. Discharge limits are not positive. -/
def dischargeLimits (keep : Rat → Bool) (unit : RUnit) (voltage : Rat) (phases : Int) (cs : List Constraint) : List Rat :=
  cs.filterMap fun c => (c.discharge.filter keep).map (inUnit c.unit unit voltage phases)

/-- The negative discharge limits. -/
abbrev dischargesIn := dischargeLimits (fun d => decide (d < 0))

/-- `x` is the maximum of `l`. -/
def IsMax (x : Rat) (l : List Rat) : Prop := x ∈ l ∧ ∀ y ∈ l, y ≤ x

/-- `o` applies the discharge limits of `cs` that satisfy `keep`: the one closest to zero, none if there is none. -/
def AppliesDischarge (keep : Rat → Bool) (cfg : Config) (unit : RUnit) (cs : List Constraint) (o : Out) : Prop :=
  let ds := dischargeLimits keep unit cfg.voltage (o.phases.getD cfg.phases) cs
  (ds = [] → o.discharge = none) ∧ (ds ≠ [] → ∃ d, o.discharge = some d ∧ IsMax d ds)

/-- The setpoint of `o` is between its discharge limit and its limit. -/
def SetpointInside (o : Out) : Prop :=
  ∀ s, o.setpoint = some s → (0 ≤ s → s ≤ o.limit) ∧ (s < 0 → ∀ d, o.discharge = some d → d ≤ s)

/-- What an EVSE contributes to the sum of limits given in `unit`: the lowest of its limits given in that unit, otherwise the
configured default. -/
def share (cfg : Config) (unit : RUnit) (cs : List Constraint) (x : Rat) : Prop :=
  let vs := (cs.filter (fun c => decide (c.unit = unit))).filterMap Constraint.limit
  (vs = [] → x = configuredDefault cfg unit) ∧ (vs ≠ [] → IsMin x vs)

/-- Physically meaningful values, far below the largest `float`, without values for single phases. -/
structure Profile.Physical (p : Profile) : Prop where
  limit : ∀ x ∈ p.periods, ∀ l, x.limit = some l → 0 ≤ l ∧ l ≤ 1000000000000
  discharge : ∀ x ∈ p.periods, ∀ l, x.discharge = some l → -1000000000000 ≤ l ∧ l ≤ 0
  setpoint : ∀ x ∈ p.periods, ∀ l, x.setpoint = some l → -1000000000000 ≤ l ∧ l ≤ 1000000000000
  phases : ∀ x ∈ p.periods, ∀ n, x.phases = some n → 1 ≤ n ∧ n ≤ 3
  scalar : ∀ x ∈ p.periods, x.limitL2 = none ∧ x.limitL3 = none ∧ x.dischargeL2 = none ∧ x.dischargeL3 = none ∧
    x.setpointL2 = none ∧ x.setpointL3 = none

structure Config.Physical (c : Config) : Prop where
  voltage : 1 ≤ c.voltage ∧ c.voltage ≤ 1000000
  phases : 1 ≤ c.phases ∧ c.phases ≤ 3
  currentLimit : 0 ≤ c.currentLimit ∧ c.currentLimit ≤ 1000000000000
  powerLimit : 0 ≤ c.powerLimit ∧ c.powerLimit ≤ 1000000000000

/-- All profiles of a station have their periods in order and physical values. -/
structure Station.Sane (s : Station) : Prop where
  station : ∀ p ∈ s.profiles, p.Ordered ∧ p.Physical
  evse : ∀ e ∈ s.evses, ∀ p ∈ e.profiles, p.Ordered ∧ p.Physical

end Verif.SC2
