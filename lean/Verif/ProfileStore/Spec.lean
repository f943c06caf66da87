import Verif.ProfileStore.Model

/-!
# Specification of profile validation and storage

Written from the requirements K01 (SetChargingProfile), K08/K09 (GetChargingProfiles), K10 (ClearChargingProfile) of OCPP 2.x, without the
functions of the model. Only the data types and the records `Env`, `Row` are shared.
-/

namespace Verif.PS
open Verif.SC16 (RUnit)

/-- Operation modes a purpose may use (OCPP 2.1, table "operation modes per purpose"). -/
inductive ModeAllowed : Purpose → OpMode → Prop
  | chargingOnly (u) : ModeAllowed u .chargingOnly
  | tx (m) : ModeAllowed .tx m
  | txDefault (m) : ModeAllowed .txDefault m
  | external : ModeAllowed .external .externalLimits
  | externalSetpoint : ModeAllowed .external .externalSetpoint
  | localGeneration : ModeAllowed .localGeneration .externalLimits

/-- The value on the first phase must be present. -/
def Vals.Required (v : Vals) : Prop := v.l1 ≠ none
/-- No value may be present. -/
def Vals.Absent (v : Vals) : Prop := v.l1 = none ∧ v.l2 = none ∧ v.l3 = none

/-- Limits and setpoints of a period (OCPP 2.1, table "limits and setpoints per operation mode"). -/
def LimitsFit (x : Period) : Prop :=
  match x.mode with
  | none | some .chargingOnly => x.limit.Required ∧ x.discharge.Absent ∧ x.setpoint.Absent ∧ x.reactive.Absent
  | some .centralSetpoint => x.setpoint.Required
  | some .centralFrequency => x.setpoint.Required ∧ x.reactive.Absent
  | some .externalSetpoint => x.setpoint.Absent ∧ x.reactive.Absent
  | some .localFrequency | some .externalLimits | some .localLoadBalancing | some .idle =>
    x.limit.Absent ∧ x.discharge.Absent ∧ x.setpoint.Absent ∧ x.reactive.Absent

/-- The phases of a setpoint do not have opposite signs to that of the first phase. -/
def SameSign (v : Vals) : Prop :=
  ∀ a, v.l1 = some a → ∀ b, (v.l2 = some b ∨ v.l3 = some b) → ¬ (0 < a ∧ b < 0) ∧ ¬ (a < 0 ∧ 0 < b)

/-- The kind of supply at an EVSE, or at the station (`evse = 0`). -/
inductive Supply (env : Env) : Int → PhaseType → Prop
  | evse (k : Nat) (e : EvseInfo) : env.evses[k]? = some e → Supply env (k + 1) e.phaseType
  | stationAC : env.supplyPhases = 1 ∨ env.supplyPhases = 3 → Supply env 0 .AC
  | stationDC : env.supplyPhases = 0 → Supply env 0 .DC
  | stationUnknown : env.supplyPhases ≠ 0 → env.supplyPhases ≠ 1 → env.supplyPhases ≠ 3 → Supply env 0 .unknown

/-- The phases may be chosen on the DC EVSE (or on all of them). -/
def PhaseControl (env : Env) (evse : Int) : Prop :=
  ∀ (k : Nat) (e : EvseInfo), env.evses[k]? = some e → (evse = 0 ∨ evse = (k : Int) + 1) → e.dcControl = true

/-- What OCPP 2.1 adds to the requirements on a period. -/
structure PeriodRules21 (env : Env) (purpose : Purpose) (unit : RUnit) (x : Period) : Prop where
  mode : ModeAllowed purpose (x.mode.getD .chargingOnly)
  frequencyUnit : x.mode = some .localFrequency → unit = .W
  sleep : x.sleep = some true → env.evseSleep = true
  limits : LimitsFit x
  curve : x.mode = some .localFrequency → (∃ n, x.curve = some n ∧ 2 ≤ n) ∧ x.baseline = true
  signs : SameSign x.setpoint

/-- Requirements on a period. -/
structure PeriodRules (env : Env) (evse : Int) (purpose : Purpose) (unit : RUnit) (x : Period) : Prop where
  phaseToUse : x.phaseToUse ≠ none → x.phases = some 1 ∧ env.phaseSwitching = true
  dc : Supply env evse .DC → (x.phases = none ∧ x.phaseToUse = none) ∨ (env.v21 = true ∧ PhaseControl env evse)
  ac : Supply env evse .AC → ∀ n, x.phases = some n → n ≤ env.supplyPhases
  v21 : env.v21 = true → PeriodRules21 env purpose unit x

/-- What OCPP 2.1 adds to the requirements on a schedule. -/
structure ScheduleRules21 (env : Env) (p : Profile) (s : Schedule) : Prop where
  delay : ∀ d, s.randomDelay = some d → env.randomDelay = true ∧ (0 < d → p.purpose = .tx ∨ p.purpose = .txDefault)
  priority : p.purpose = .priority → env.priority = true
  localGeneration : p.purpose = .localGeneration → env.localGeneration = true
  dynamic : p.kind = .dynamic → env.dynamicProfiles = true
  update : p.dynInterval = true ∨ p.dynTime = true → p.kind = .dynamic
  localTime : s.useLocalTime = some true → env.localTime = true
  soc : s.limitAtSoC = true → env.limitAtSoC = true

/-- Requirements on a schedule. -/
structure ScheduleRules (env : Env) (evse : Int) (p : Profile) (s : Schedule) : Prop where
  unit : (s.unit = .A → env.unitA = true) ∧ (s.unit = .W → env.unitW = true)
  first : ∃ a rest, s.periods = a :: rest ∧ a.start = 0
  increasing : s.periods.Pairwise (fun a b => a.start < b.start)
  periods : ∀ x ∈ s.periods, PeriodRules env evse p.purpose s.unit x
  start : (p.kind = .absolute ∨ p.kind = .recurring → s.start ≠ none) ∧ (p.kind = .relative → s.start = none)
  v21 : env.v21 = true → ScheduleRules21 env p s

/-- `t` lies in the validity of the profile. -/
def Profile.ValidAt (p : Profile) (t : Int) : Prop := (∀ a, p.validFrom = some a → a ≤ t) ∧ (∀ b, p.validTo = some b → t ≤ b)

/-- `i` is the transaction running on an EVSE. -/
def Env.Running (env : Env) (evse : Int) (i : Nat) : Prop := ∃ (k : Nat) (e : EvseInfo), evse = (k : Int) + 1 ∧ env.evses[k]? = some e ∧ e.tx = some i

/-- Requirements that relate a profile to what is stored. -/
structure StoreRules (env : Env) (rows : List Row) (evse : Int) (p : Profile) : Prop where
  id : ∀ r ∈ rows, r.profile.id = p.id → r.profile.purpose ≠ .external
  reserved : env.v21 = true → ∀ m, env.maxExternalId = some m → m < p.id
  validity : p.purpose ≠ .tx → ∀ r ∈ rows, r.profile.purpose = p.purpose → r.evse = evse → r.profile.stack = p.stack →
    r.profile.id ≠ p.id →
    r.profile.validTo.getD forever < p.validFrom.getD 0 ∨ p.validTo.getD forever < r.profile.validFrom.getD 0
  txDefault : p.purpose = .txDefault → ∀ r ∈ rows, r.profile.purpose = .txDefault → r.profile.stack = p.stack →
    r.profile.id ≠ p.id → ¬ ((evse = 0 ∧ r.evse ≠ 0) ∨ (evse ≠ 0 ∧ r.evse = 0))
  tx : p.purpose = .tx → ∀ r ∈ rows, r.profile.txId = p.txId → r.profile.stack = p.stack → r.profile.id = p.id

/-- Requirements for each purpose. -/
structure PurposeRules (env : Env) (evse : Int) (p : Profile) : Prop where
  stationMax : p.purpose = .stationMax → evse = 0 ∧ p.kind ≠ .relative
  tx : p.purpose = .tx → ∃ i, p.txId = some i ∧ env.Running evse i
  priority : p.purpose = .priority → ∀ s ∈ p.schedules, s.duration = none
  supported : p.purpose ≠ .localGeneration

/-- A profile that SetChargingProfile may accept. -/
structure Acceptable (env : Env) (rows : List Row) (evse : Int) (p : Profile) : Prop where
  known : 0 ≤ evse ∧ evse ≤ (env.evses.length : Int)
  nonempty : p.schedules ≠ []
  schedules : ∀ s ∈ p.schedules, ScheduleRules env evse p s
  store : StoreRules env rows evse p
  purpose : PurposeRules env evse p

/-! ## Invariants of the store -/

/-- Two stored profiles never have the same id. -/
def UniqueIds (rows : List Row) : Prop := rows.Pairwise (fun a b => a.profile.id ≠ b.profile.id)

/-- Two different stored profiles with the same EVSE, purpose (not TxProfile) and stack level are never valid at the same time. -/
def NoOverlap (rows : List Row) : Prop :=
  ∀ a ∈ rows, ∀ b ∈ rows, a.profile.id ≠ b.profile.id → a.profile.purpose ≠ .tx → a.profile.purpose = b.profile.purpose →
    a.evse = b.evse → a.profile.stack = b.profile.stack → ∀ t, ¬ (a.profile.ValidAt t ∧ b.profile.ValidAt t)

/-- A station-wide TxDefaultProfile and one of an EVSE never have the same stack level. -/
def NoMixedTxDefault (rows : List Row) : Prop :=
  ∀ a ∈ rows, ∀ b ∈ rows, a.profile.purpose = .txDefault → b.profile.purpose = .txDefault → a.evse = 0 → b.evse ≠ 0 →
    a.profile.stack ≠ b.profile.stack

/-- Two TxProfiles of a transaction never have the same stack level. -/
def TxStacks (rows : List Row) : Prop :=
  ∀ a ∈ rows, ∀ b ∈ rows, a.profile.purpose = .tx → b.profile.purpose = .tx → a.profile.txId ≠ none →
    a.profile.txId = b.profile.txId → a.profile.stack = b.profile.stack → a.profile.id = b.profile.id

/-- Every stored profile has a supported EVSE id, non-empty schedules, and periods from 0 in increasing order. -/
def WellFormed (env : Env) (rows : List Row) : Prop :=
  ∀ r ∈ rows, (0 ≤ r.evse ∧ r.evse ≤ (env.evses.length : Int)) ∧ r.profile.schedules ≠ [] ∧ ∀ s ∈ r.profile.schedules,
    (∃ a rest, s.periods = a :: rest ∧ a.start = 0) ∧ s.periods.Pairwise (fun a b => a.start < b.start)

/-! ## Clear and report -/

/-- What ClearChargingProfile asks for: the id if given, otherwise the criteria; never external constraints. -/
def Clears (id : Option Int) (c : Option Criteria) (r : Row) : Prop :=
  r.profile.purpose ≠ .external ∧
    match id, c with
    | some i, _ => r.profile.id = i
    | none, some c => (∀ u, c.purpose = some u → r.profile.purpose = u) ∧ (∀ x, c.stack = some x → r.profile.stack = x) ∧
        (∀ x, c.evse = some x → r.evse = x)
    | none, none => True

/-- What GetChargingProfiles asks for. -/
def Asks (q : Query) (r : Row) : Prop :=
  (∀ e, q.evse = some e → r.evse = e) ∧
    (q.ids ≠ [] → r.profile.id ∈ q.ids) ∧
    (q.ids = [] → (∀ u, q.purpose = some u → r.profile.purpose = u) ∧ (∀ x, q.stack = some x → r.profile.stack = x) ∧
      (q.sources ≠ [] → r.source ∈ q.sources))

end Verif.PS
