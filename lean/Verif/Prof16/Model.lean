/-!
Charging profiles of OCPP 1.6: the part of lib/ocpp/v16/smart_charging.cpp that stores profiles, the handlers of lib/ocpp/v16/charge_point_impl.cpp and the table
CHARGING_PROFILES of lib/ocpp/v16/database_handler.cpp.

Simplifications: limits and times are integers; the minimum charging rate and validFrom are left out (the store does not look at them); database statements
succeed; the maps of a connector and of the charge point are one list of (connector, profile) whose key is connector, purpose and stack level (in the code each
purpose has its own map with the stack level as key, ChargePointMaxProfiles have connector 0).
-/

namespace Verif.Prof16

inductive Purpose
  | max
  | txDefault
  | tx
  deriving DecidableEq, Repr

inductive Kind
  | absolute
  | recurring
  | relative
  deriving DecidableEq, Repr

inductive Recurrency
  | daily
  | weekly
  deriving DecidableEq, Repr

inductive Unit'
  | amp
  | watt
  deriving DecidableEq, Repr

/-- `ChargingSchedulePeriod`, include/ocpp/v16/ocpp_types.hpp l.50-54. -/
structure Period where
  start : Int
  limit : Int
  phases : Option Int := none
  deriving DecidableEq, Repr

/-- `ChargingProfile` and its `ChargingSchedule`, include/ocpp/v16/ocpp_types.hpp l.65-71, l.145-155. -/
structure Profile where
  id : Int
  level : Int
  purpose : Purpose
  kind : Kind
  unit : Unit' := .amp
  periods : List Period := []
  duration : Option Int := none
  start : Option Int := none
  txId : Option Int := none
  recurrency : Option Recurrency := none
  validTo : Option Int := none
  deriving DecidableEq, Repr

/-- The configuration keys that are looked at. -/
structure Cfg where
  connectors : Nat
  maxLevel : Int := 10
  maxProfiles : Int := 10
  maxPeriods : Int := 10
  units : List Unit' := [.amp]
  purposes : List Purpose := [.max, .txDefault, .tx]
  allowNoStart : Bool := false
  deriving DecidableEq, Repr

/-- An installed profile and its connector; also a row of CHARGING_PROFILES. -/
structure Entry where
  conn : Nat
  prof : Profile
  deriving DecidableEq, Repr

/-- The station: installed profiles, database (in the order of insertion), and the running transactions: connector and transaction id, if there is one yet. -/
structure S where
  mem : List Entry := []
  db : List Entry := []
  txs : List (Nat × Option Int) := []
  deriving DecidableEq, Repr

/-- One period in `validate_schedule`, smart_charging.cpp l.86-99. -/
def periodOk (p : Period) : Bool :=
  (match p.phases with
    | some n => !(n ≤ 0 || n > 3)
    | none => true) && !(p.limit < 0)

/-- `validate_schedule`, smart_charging.cpp l.68-101.  The maximum is converted to an unsigned number: a negative one is no limit. -/
def scheduleOk (cfg : Cfg) (p : Profile) : Bool :=
  !(0 ≤ cfg.maxPeriods && (p.periods.length : Int) > cfg.maxPeriods) && cfg.units.contains p.unit && p.periods.all periodOk

/-- The running transaction of a connector. -/
def S.tx (s : S) (c : Nat) : Option (Option Int) := (s.txs.find? (fun t => t.1 == c)).map (·.2)

/-- The missing start of a schedule is the current time, if that is allowed, smart_charging.cpp l.313-322, l.339-348. -/
def withStart (cfg : Cfg) (now : Int) (p : Profile) : Option Profile :=
  if p.start.isSome then some p else if cfg.allowNoStart then some { p with start := some now } else none

/-- The longest duration of a recurring profile, smart_charging.cpp l.350-352. -/
def longest : Option Recurrency → Int
  | some .daily => 86400
  | _ => 604800

/-- The duration of a recurring profile is reduced, smart_charging.cpp l.349-360. -/
def withDuration (p : Profile) : Profile := { p with duration := p.duration.map (fun d => if d > longest p.recurrency then longest p.recurrency else d) }

/-- The part of `validate_profile` about recurring profiles, smart_charging.cpp l.334-361. -/
def recurringOk (cfg : Cfg) (now : Int) (p : Profile) : Option Profile :=
  if p.kind = .recurring then
    if p.recurrency.isNone then none else (withStart cfg now p).map withDuration
  else some p

/-- The part of `validate_profile` about the transaction of a TxProfile, smart_charging.cpp l.376-396. -/
def txOk (s : S) (c : Nat) (p : Profile) (ignoreNoTx : Bool) : Bool :=
  if c = 0 then false
  else if (s.tx c).isNone && !ignoreNoTx then false
  else match p.txId with
    | none => true
    | some i => s.tx c == some (some i)

/-- The last part of `validate_profile`, smart_charging.cpp l.363-399. -/
def purposeOk (s : S) (c : Nat) (p : Profile) (ignoreNoTx : Bool) : Bool :=
  match p.purpose with
  | .max => c == 0 && p.kind != .relative
  | .txDefault => true
  | .tx => txOk s c p ignoreNoTx

/-- `validate_profile`, smart_charging.cpp l.305-399: the profile as it will be installed.  (`connectors` has the ids 0 to the number of connectors.)
`get_number_installed_profiles`, l.127-141, counts the copies for the connectors one by one. -/
def validate (cfg : Cfg) (s : S) (now : Int) (p : Profile) (c : Int) (ignoreNoTx : Bool) : Option Profile :=
  if c < 0 || c > cfg.connectors || p.level < 0 || p.level > cfg.maxLevel then none
  else match (if p.kind = .absolute then withStart cfg now p else some p) with
    | none => none
    | some p1 =>
      if (s.mem.length : Int) ≥ cfg.maxProfiles then none
      else if !scheduleOk cfg p1 then none
      else match recurringOk cfg now p1 with
        | none => none
        | some p2 => if purposeOk s c.toNat p2 ignoreNoTx then some p2 else none

/-- `insert_or_update_charging_profile`, database_handler.cpp l.525-563: rows with the same stack level and purpose are deleted, then the row is added, or replaces the
one with the same id. -/
def store (db : List Entry) (e : Entry) : List Entry :=
  (db.filter (fun x => !(x.prof.level == e.prof.level && x.prof.purpose == e.prof.purpose))).filter (fun x => x.prof.id != e.prof.id) ++ [e]

/-- `delete_charging_profile`, database_handler.cpp l.565-573. -/
def delete (db : List Entry) (id : Int) : List Entry := db.filter (fun x => x.prof.id != id)

/-- The connectors a profile is installed at: `add_charge_point_max_profile`, `add_tx_default_profile`, `add_tx_profile`, smart_charging.cpp l.402-441. -/
def targets (cfg : Cfg) (c : Nat) (p : Profile) : List Nat :=
  match p.purpose with
  | .max => [0]
  | .txDefault => if c = 0 then (List.range cfg.connectors).map (· + 1) else [c]
  | .tx => [c]

/-- Assignment to a key of a map. -/
def put (mem : List Entry) (e : Entry) : List Entry :=
  mem.filter (fun x => !(x.conn == e.conn && x.prof.purpose == e.prof.purpose && x.prof.level == e.prof.level)) ++ [e]

/-- `add_charge_point_max_profile`, `add_tx_default_profile`, `add_tx_profile`, smart_charging.cpp l.402-441. -/
def add (cfg : Cfg) (s : S) (c : Nat) (p : Profile) : S :=
  { s with
    mem := (targets cfg c p).foldl (fun m t => put m { conn := t, prof := p }) s.mem
    db := store s.db { conn := if p.purpose = .max then 0 else c, prof := p } }

/-- The filters of `clear_all_profiles_with_filter`. -/
structure Filter where
  id : Option Int := none
  conn : Option Int := none
  level : Option Int := none
  purpose : Option Purpose := none
  idOnly : Bool := false
  deriving DecidableEq, Repr

/-- An absent filter, or the value. -/
def eqOr {α : Type} [DecidableEq α] : Option α → α → Bool
  | none, _ => true
  | some a, b => a == b

/-- The condition of `clear_profiles`, smart_charging.cpp l.451-463. -/
def Filter.hits (f : Filter) (e : Entry) : Bool :=
  (f.id == some e.prof.id) || (!f.idOnly && eqOr f.conn (e.conn : Int) && eqOr f.level e.prof.level && eqOr f.purpose e.prof.purpose)

/-- `clear_all_profiles_with_filter`, `clear_profiles`, smart_charging.cpp l.443-504: whether a profile was cleared, and the state. -/
def clear (s : S) (f : Filter) : S :=
  { s with
    mem := s.mem.filter (fun e => !f.hits e)
    db := (s.mem.filter f.hits).foldl (fun db e => delete db e.prof.id) s.db }

/-- The return value of `clear_all_profiles_with_filter`. -/
def cleared (s : S) (f : Filter) : Bool := s.mem.any f.hits

/-- `handleSetChargingProfileRequest`, charge_point_impl.cpp l.2469-2524: the answer is Accepted, and the state.  The application is told to apply the profiles
exactly if the answer is Accepted. -/
def setProfile (cfg : Cfg) (s : S) (now : Int) (c : Int) (p : Profile) : S × Bool :=
  if !cfg.purposes.contains p.purpose then (s, false)
  else match validate cfg s now p c false with
    | none => (s, false)
    | some p' =>
      let s1 := clear s { id := some p'.id, idOnly := true }
      let s2 := clear s1 { conn := some c, level := some p'.level, purpose := some p'.purpose }
      (add cfg s2 c.toNat p', true)

/-- The profile of RemoteStartTransaction, charge_point_impl.cpp l.2203-2221: `none` if there is no connector; the answer is Rejected without further effects if
the profile is not installed. -/
def remoteProfile (cfg : Cfg) (s : S) (now : Int) (c : Option Int) (p : Profile) : S × Bool :=
  match c with
  | none => (s, false)
  | some c =>
    if p.purpose ≠ .tx then (s, false)
    else match validate cfg s now p c true with
      | none => (s, false)
      | some p' => (add cfg s c.toNat p', true)

/-- `handleClearChargingProfileRequest`, charge_point_impl.cpp l.2564-2593, `clear_all_profiles`, smart_charging.cpp l.506-525: the state, and whether the answer is
Accepted (or else Unknown). -/
def clearProfile (s : S) (id conn level : Option Int) (purpose : Option Purpose) : S × Bool :=
  if id.isNone && conn.isNone && purpose.isNone && level.isNone then ({ s with mem := [], db := [] }, true)
  else
    let f : Filter := if id.isSome then { id := id, conn := conn, level := level, purpose := purpose, idOnly := true }
      else { conn := conn, level := level, purpose := purpose }
    (clear s f, cleared s f)

/-- Whether a profile has expired, `clear_expired_profiles`, smart_charging.cpp l.35-53. -/
def expired (now : Int) (p : Profile) : Bool :=
  (match p.validTo with
    | some t => decide (t < now)
    | none => false) ||
  (p.kind == .absolute && match p.start, p.duration with
    | some t, some d => decide (t + d < now)
    | _, _ => false)

/-- `clear_expired_profiles`, smart_charging.cpp l.26-63, l.111-125. -/
def clearExpired (s : S) (now : Int) : S :=
  { s with
    mem := s.mem.filter (fun e => !expired now e.prof)
    db := (s.mem.filter (fun e => expired now e.prof)).foldl (fun db e => delete db e.prof.id) s.db }

/-- A transaction begins, charge_point_impl.cpp l.4318; it gets its id, l.2355. -/
def txStart (s : S) (c : Nat) : S := { s with txs := (c, none) :: s.txs.filter (fun t => t.1 != c) }

/-- The CSMS answers StartTransaction.req. -/
def txId (s : S) (c : Nat) (i : Int) : S := { s with txs := s.txs.map (fun t => if t.1 = c then (c, some i) else t) }

/-- A transaction ends: `on_transaction_stopped`, charge_point_impl.cpp l.4449-4453. -/
def txEnd (s : S) (c : Nat) : S := clear { s with txs := s.txs.filter (fun t => t.1 != c) } { conn := some (c : Int), purpose := some .tx }

/-- `get_connector_id`, database_handler.cpp l.600-617. -/
def connectorOf (db : List Entry) (id : Int) : Option Nat := (db.find? (fun x => x.prof.id == id)).map (·.conn)

/-- One row in `load_charging_profiles`, charge_point_impl.cpp l.571-600. -/
def loadOne (cfg : Cfg) (now : Int) (s : S) (p : Profile) : S :=
  match connectorOf s.db p.id with
  | none => s
  | some c => match validate cfg s now p c false with
    | some p' => if cfg.purposes.contains p'.purpose then add cfg s c p' else { s with db := delete s.db p.id }
    | none => { s with db := delete s.db p.id }

/-- A restart: the constructor of `ChargePointImpl`, charge_point_impl.cpp l.177-183.  Transactions are resumed later, and never become the transaction of
a `Connector` (l.510-564). -/
def restart (cfg : Cfg) (s : S) (now : Int) : S := (s.db.map (·.prof)).foldl (loadOne cfg now) { mem := [], db := s.db, txs := [] }

/-- `get_valid_profiles`, smart_charging.cpp l.527-585, without purposes to ignore: the profiles a composite schedule of a connector is made of. -/
def inEffect (s : S) (c : Nat) : List Profile :=
  ((s.mem.filter (fun e => e.prof.purpose == .max)) ++
    (if c = 0 then [] else (s.mem.filter (fun e => e.prof.purpose == .tx && e.conn == c && (match e.prof.txId with
        | some i => s.tx c == some (some i)
        | none => true))) ++
      s.mem.filter (fun e => e.prof.purpose == .txDefault && e.conn == c))).map (·.prof)

/-- What happens. -/
inductive Op
  | set (now : Int) (c : Int) (p : Profile)
  | remote (now : Int) (c : Option Int) (p : Profile)
  | clear (id conn level : Option Int) (purpose : Option Purpose)
  | expire (now : Int)
  | txStart (c : Nat)
  | txId (c : Nat) (i : Int)
  | txEnd (c : Nat)
  | restart (now : Int)
  deriving DecidableEq, Repr

def step (cfg : Cfg) (s : S) : Op → S
  | .set now c p => (setProfile cfg s now c p).1
  | .remote now c p => (remoteProfile cfg s now c p).1
  | .clear i c l p => (clearProfile s i c l p).1
  | .expire now => clearExpired s now
  | .txStart c => txStart s c
  | .txId c i => txId s c i
  | .txEnd c => txEnd s c
  | .restart now => restart cfg s now

/-- A history. -/
def run (cfg : Cfg) (s : S) (ops : List Op) : S := ops.foldl (step cfg) s

end Verif.Prof16
