import Verif.Prof16.Model

/-! What the properties of the charging profiles of OCPP 1.6 say. -/

namespace Verif.Prof16

/-- The rules for a profile `p` of a request for connector `c`. -/
structure Valid (cfg : Cfg) (s : S) (c : Int) (p : Profile) (beforeTx : Bool) : Prop where
  conn : 0 ≤ c ∧ c ≤ cfg.connectors
  level : 0 ≤ p.level ∧ p.level ≤ cfg.maxLevel
  room : (s.mem.length : Int) < cfg.maxProfiles
  periods : 0 ≤ cfg.maxPeriods → (p.periods.length : Int) ≤ cfg.maxPeriods
  unit : p.unit ∈ cfg.units
  limits : ∀ q ∈ p.periods, 0 ≤ q.limit ∧ ∀ n, q.phases = some n → 1 ≤ n ∧ n ≤ 3
  start : p.kind ≠ .relative → p.start ≠ none ∨ cfg.allowNoStart = true
  recurring : p.kind = .recurring → p.recurrency ≠ none
  max : p.purpose = .max → c = 0 ∧ p.kind ≠ .relative
  tx : p.purpose = .tx → c ≠ 0 ∧ (beforeTx = false → s.tx c.toNat ≠ none) ∧ ∀ i, p.txId = some i → s.tx c.toNat = some (some i)

/-- The profile as installed: a missing start is the current time, and a recurring schedule lasts at most a day or a week. -/
def adjusted (now : Int) (p : Profile) : Profile :=
  { p with
    start := if p.kind = .relative then p.start else some (p.start.getD now)
    duration := if p.kind = .recurring then p.duration.map (fun d => min d (if p.recurrency = some .daily then 86400 else 604800)) else p.duration }

/-- A profile of purpose `p` in a request for connector `c` concerns connector `t` (0: the charge point as a whole). -/
def Concerns (cfg : Cfg) (c : Nat) : Purpose → Nat → Prop
  | .max, t => t = 0
  | .txDefault, t => if c = 0 then 1 ≤ t ∧ t ≤ cfg.connectors else t = c
  | .tx, t => t = c

/-- The installed profiles that a new one replaces: same id, or same purpose and stack level at the same connector. -/
def Replaced (c : Int) (p : Profile) (e : Entry) : Prop :=
  e.prof.id = p.id ∨ (e.prof.purpose = p.purpose ∧ e.prof.level = p.level ∧ (c = 0 ∨ (e.conn : Int) = c))

/-- The filters of ClearChargingProfile: an id alone decides, else all filters that are present. -/
def Matches (id conn level : Option Int) (purpose : Option Purpose) (e : Entry) : Prop :=
  match id with
  | some i => e.prof.id = i
  | none => (∀ c, conn = some c → (e.conn : Int) = c) ∧ (∀ l, level = some l → e.prof.level = l) ∧ ∀ p, purpose = some p → e.prof.purpose = p

/-- The time of a profile is over. -/
def Over (now : Int) (p : Profile) : Prop :=
  (∃ t, p.validTo = some t ∧ t < now) ∨ (p.kind = .absolute ∧ ∃ t d, p.start = some t ∧ p.duration = some d ∧ t + d < now)

/-- The station does not keep profiles of one purpose and stack level at several connectors except by one request for connector 0, and never clears only some of
the copies of a profile; RemoteStartTransaction uses a new profile id. -/
def NoClash (s : S) : Op → Prop
  | .set _ c p => ∀ e ∈ s.mem, e.prof.purpose = p.purpose → e.prof.level = p.level → e.prof.id = p.id ∨ c = 0 ∨ (e.conn : Int) = c
  | .remote _ _ p => ∀ e ∈ s.mem, e.prof.id ≠ p.id
  | .clear i c l p => ∀ e ∈ s.mem, ∀ e' ∈ s.mem, e.prof.id = e'.prof.id → Matches i c l p e → Matches i c l p e'
  | _ => True

end Verif.Prof16
