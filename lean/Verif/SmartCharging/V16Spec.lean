import Verif.SmartCharging.V16Model

/-!
# What a set of 1.6 charging profiles means at an instant

This file is the specification used by the theorems; it does not use the calculation in `V16Model`, only its data types.
-/

namespace Verif.SC16
open Verif.SC

/-- The instant from which the schedule of `p` counts at instant `t`. Absolute: the start of the schedule. Relative: the start of the
session. Recurring: the latest instant not after `t` that differs from the start of the schedule by a multiple of the recurrence. -/
def Profile.startAt (p : Profile) (session : Option Int) (now t : Int) : Option Int :=
  match p.kind with
  | .absolute => some (p.startSchedule.getD (p.validFrom.getD now))
  | .relative => some (session.getD now)
  | .recurring =>
    match p.recur, p.startSchedule with
    | some .daily, some ss => some (t - (t - ss) % 86400)
    | some .weekly, some ss => some (t - (t - ss) % 604800)
    | _, _ => none

/-- The last period that has started `off` seconds after the start of the schedule. -/
def Profile.periodAt (p : Profile) (off : Int) : Option Period :=
  (p.periods.filter (fun x => decide (x.start ≤ off))).getLast?

/-- The period of `p` in force at instant `t`, if any: the schedule has started, its duration is not over, and `t` is in the
validity interval of the profile. ("Forever" is `intMax` seconds.) -/
def Profile.inForce (p : Profile) (session : Option Int) (now t : Int) : Option Period :=
  match p.startAt session now t with
  | none => none
  | some s =>
    if s ≤ t ∧ t < s + p.duration.getD intMax ∧ t < s + intMax ∧ p.validFrom.getD t ≤ t ∧ t < p.validTo.getD (t + 1) then
      p.periodAt (t - s)
    else none

/-- The period list of a profile is in order: it starts with offset 0 and offsets increase. -/
structure Profile.Ordered (p : Profile) : Prop where
  first : ∃ a rest, p.periods = a :: rest ∧ a.start = 0
  increasing : p.periods.Pairwise (fun a b => a.start < b.start)
  small : ∀ x ∈ p.periods, x.start ≤ intMax

/-- `r` says which profile of the collection `S` decides at `t`: nothing if none of them is in force, otherwise one that is in
force and has the highest stack level among those in force. -/
def Decides (S : Profile → Prop) (session : Option Int) (now t : Int) (r : Option (Profile × Period)) : Prop :=
  match r with
  | none => ∀ p, S p → p.inForce session now t = none
  | some (p, per) => S p ∧ p.inForce session now t = some per ∧ ∀ q, S q → q.inForce session now t ≠ none → q.stack ≤ p.stack

/-- The stored profiles of each kind have the right purpose. -/
structure Handler.WF (h : Handler) : Prop where
  cpMax : ∀ p ∈ h.cpMax, p.purpose = .chargePointMax
  txDefault : ∀ c ∈ h.connectors, ∀ p ∈ c.txDefault, p.purpose = .txDefault
  tx : ∀ c ∈ h.connectors, ∀ p ∈ c.txProfiles, p.purpose = .tx

/-- Station-wide profiles that count. -/
def StationProfile (cfg : Config) (h : Handler) (p : Profile) : Prop := p ∈ h.cpMax ∧ Purpose.chargePointMax ∉ cfg.ignore

/-- TxProfiles of a connector that count: those without a transaction id or with the id of the running transaction. -/
def TxProfileOf (cfg : Config) (c : Connector) (p : Profile) : Prop :=
  p ∈ c.txProfiles ∧ Purpose.tx ∉ cfg.ignore ∧ (p.txId = none ∨ ∃ tx, c.tx = some tx ∧ p.txId = some tx.id)

/-- TxDefaultProfiles of a connector that count. -/
def TxDefaultOf (cfg : Config) (c : Connector) (p : Profile) : Prop := p ∈ c.txDefault ∧ Purpose.txDefault ∉ cfg.ignore

/-- `r` is the transaction limit of a connector at `t`: that of its TxProfiles if one is in force, else that of its
TxDefaultProfiles; none if there is no transaction and none is simulated. -/
def TxDecides (cfg : Config) (c : Connector) (simulate : Bool) (now t : Int) (r : Option (Profile × Period)) : Prop :=
  if c.tx ≠ none ∨ simulate = true then
    ∃ a b, Decides (TxProfileOf cfg c) (c.tx.map Tx.start) now t a ∧ Decides (TxDefaultOf cfg c) (c.tx.map Tx.start) now t b ∧
      r = (match a with | some x => some x | none => b)
  else r = none

/-- A limit in its own unit together with its number of phases. -/
structure Limit where
  unit : RUnit
  value : Rat
  phases : Option Int

def limitOf (r : Profile × Period) : Limit := ⟨r.1.unit, r.2.limit, r.2.phases⟩

/-- A limit expressed in `unit` for a given voltage and number of phases. -/
def Limit.inUnit (l : Limit) (unit : RUnit) (voltage : Rat) (phases : Int) : Rat :=
  match l.unit, unit with
  | .A, .A => l.value
  | .W, .W => l.value
  | .W, .A => l.value / (voltage * phases)
  | .A, .W => l.value * (voltage * phases)

/-- Lowest given number of phases. -/
def lowestPhases (l : List (Option Int)) : Option Int := (l.filterMap id).min?

/-- Highest given number of phases. -/
def highestPhases (l : List (Option Int)) : Option Int := (l.filterMap id).max?

/-- `x` is the minimum of `l`. -/
def IsMin (x : Rat) (l : List Rat) : Prop := x ∈ l ∧ ∀ y ∈ l, x ≤ y

/-- The limit that applies when no profile does. -/
def configuredDefault (cfg : Config) : RUnit → Rat
  | .A => cfg.currentLimit
  | .W => cfg.powerLimit

/-- `o` applies the constraints `cs`: the configured default if there is none, and otherwise the lowest of them, converted to the
requested unit with the lowest number of phases. -/
def Applies (cfg : Config) (unit : RUnit) (cs : List Limit) (o : Out) : Prop :=
  let ph := lowestPhases (cs.map Limit.phases)
  o.phases = ph ∧
  (cs = [] → o.limit = configuredDefault cfg unit) ∧
  (cs ≠ [] → IsMin o.limit (cs.map fun l => l.inUnit unit cfg.voltage (ph.getD cfg.phases)))

/-- What a connector contributes to the sum of limits given in `unit`: its transaction limit if given in that unit, otherwise the
configured default. -/
def share (cfg : Config) (unit : RUnit) : Option (Profile × Period) → Rat
  | some (p, per) => if p.unit = unit then per.limit else configuredDefault cfg unit
  | none => configuredDefault cfg unit

/-- The sum over connectors. -/
def sumOf (cfg : Config) (unit : RUnit) (rs : List (Option (Profile × Period))) : Rat := (rs.map (share cfg unit)).sum

/-- Physically meaningful values, far below the largest `float`. -/
structure Profile.Physical (p : Profile) : Prop where
  limit : ∀ x ∈ p.periods, 0 ≤ x.limit ∧ x.limit ≤ 1000000000000
  phases : ∀ x ∈ p.periods, ∀ n, x.phases = some n → 1 ≤ n ∧ n ≤ 3

structure Config.Physical (c : Config) : Prop where
  voltage : 1 ≤ c.voltage ∧ c.voltage ≤ 1000000
  phases : 1 ≤ c.phases ∧ c.phases ≤ 3
  currentLimit : 0 ≤ c.currentLimit ∧ c.currentLimit ≤ 1000000000000
  powerLimit : 0 ≤ c.powerLimit ∧ c.powerLimit ≤ 1000000000000

/-- All profiles of a handler have their periods in order and physical values. -/
structure Handler.Sane (h : Handler) : Prop where
  wf : h.WF
  cpMax : ∀ p ∈ h.cpMax, p.Ordered ∧ p.Physical
  txDefault : ∀ c ∈ h.connectors, ∀ p ∈ c.txDefault, p.Ordered ∧ p.Physical
  tx : ∀ c ∈ h.connectors, ∀ p ∈ c.txProfiles, p.Ordered ∧ p.Physical

end Verif.SC16
