import Verif.InitDb.Model
/-
What the properties of the device model database at a start speak about.
-/
set_option linter.constructorNameAsVariable false

namespace Verif.InitDb

open Verif.DM (Str DataType AttrType)

/-- A variable of the configuration in order: its instance is not the empty text, it has attributes, of
different types, and its monitors are hard-wired or preconfigured and differ in type or severity. -/
structure TidyVar (v : CVar) : Prop where
  inst : v.inst ≠ some []
  attrs : v.attrs ≠ []
  types : (v.attrs.map CAttr.type).Nodup
  mons : (v.mons.map Mon.mkey).Nodup
  cfg : ∀ m ∈ v.mons, m.cfg ≠ .custom

/-- A component of the configuration in order: it has variables, with different names. -/
structure TidyComp (e : Key × List CVar) : Prop where
  inst : e.1.inst ≠ some []
  vars : e.2 ≠ []
  names : (e.2.map CVar.vkey).Nodup
  tidy : ∀ v ∈ e.2, TidyVar v

/-- A configuration in order (that the components are different is guaranteed by `std::map`). -/
structure Tidy (cfg : Config) : Prop where
  keys : (cfg.map Prod.fst).Nodup
  tidy : ∀ e ∈ cfg, TidyComp e

/-- The configuration has this variable. -/
def HasVar (cfg : Config) (k : Key) (v : CVar) : Prop := ∃ vs, (k, vs) ∈ cfg ∧ v ∈ vs

/-- The configuration has this attribute. -/
def HasAttr (cfg : Config) (k : Key) (n : VKey) (t : AttrType) : Prop :=
  ∃ v a, HasVar cfg k v ∧ v.vkey = n ∧ a ∈ v.attrs ∧ a.type = some t

/-- What happens to the database: starts (successful or not), starts that are interrupted, and what the
functional blocks do between. -/
inductive Op where
  | start (cfg : Config)
  | interrupted (cfg : Config) (gone : Comp → Bool)
  | set (k : Key) (v : VKey) (t : AttrType) (value src : Str)
  | addMonitor (k : Key) (v : VKey) (m : Mon)
  | clearMonitor (i : Nat) (allowProtected : Bool)
  | reference (i : Nat) (r : Str)

/-- The database a start leaves behind, whether it succeeds or not. -/
def Result.db : Result → DB
  | .done db => db
  | .thrown db => db

/-- One step. -/
def Op.exec : Op → DB → DB
  | .start cfg, db => (initDb cfg db).db
  | .interrupted cfg gone, db => db.partlyRemoved cfg gone
  | .set k v t value src, db => setValue k v t value src db
  | .addMonitor k v m, db => InitDb.addMonitor k v m db
  | .clearMonitor i p, db => InitDb.clearMonitor i p db
  | .reference i r, db => setReference i r db

/-- The configurations of all starts are in order. -/
def Op.Tidy : Op → Prop
  | .start cfg => InitDb.Tidy cfg
  | .interrupted cfg _ => InitDb.Tidy cfg
  | _ => True

/-- A history. -/
def exec (ops : List Op) (db : DB) : DB := ops.foldl (fun db o => o.exec db) db

/-- The databases a charging station can have: every history from the empty database, with configurations in
order. -/
def Reachable (db : DB) : Prop := ∃ ops : List Op, (∀ o ∈ ops, o.Tidy) ∧ exec ops emptyDb = db

/-- The source of a value that was not taken from the configuration. -/
def SetByOthers (src : Str) : Prop := src ≠ "default".toList ∧ src ≠ []

/-- No start of the history drops the attribute from the configuration and nobody writes it. -/
def Op.KeepsAttr (k : Key) (n : VKey) (t : AttrType) : Op → Prop
  | .start cfg => HasAttr cfg k n t
  | .interrupted cfg _ => HasAttr cfg k n t
  | .set k' n' t' _ _ => ¬(k' = k ∧ n' = n ∧ t' = t)
  | _ => True

/-- No start of the history drops the variable from the configuration and nobody clears the monitor or gives it
a new reference value. -/
def Op.KeepsMonitor (k : Key) (n : VKey) (i : Nat) : Op → Prop
  | .start cfg => ∃ v, HasVar cfg k v ∧ v.vkey = n
  | .interrupted cfg _ => ∃ v, HasVar cfg k v ∧ v.vkey = n
  | .clearMonitor j _ => j ≠ i
  | .reference j _ => j ≠ i
  | _ => True

/-- Both absent, or equal up to upper and lower case. -/
def SameText : Option Str → Option Str → Prop
  | none, none => True
  | some a, some b => a.map Char.toLower = b.map Char.toLower
  | _, _ => False

/-- Equal characteristics, up to the case of unit and list of values. -/
structure SameChars (a b : Chars) : Prop where
  dataType : a.dataType = b.dataType
  maxLimit : a.maxLimit = b.maxLimit
  minLimit : a.minLimit = b.minLimit
  monitoring : a.supportsMonitoring = b.supportsMonitoring
  unit : SameText a.unit b.unit
  valuesList : SameText a.valuesList b.valuesList

/-- Equal monitors, up to the precision of a `float` near 1 for the value. -/
structure SameMon (a b : Mon) : Prop where
  type : a.type = b.type
  severity : a.severity = b.severity
  transaction : a.transaction = b.transaction
  cfg : a.cfg = b.cfg
  ref : a.ref = b.ref
  above : a.value ≤ b.value + 1 / 8388608
  below : b.value ≤ a.value + 1 / 8388608

/-- The device model is that of the configuration. -/
structure Mirrors (cfg : Config) (db : DB) : Prop where
  names : ∀ k n, (∃ c s, (k, n, c, s) ∈ listed db) ↔ ∃ v, HasVar cfg k v ∧ v.vkey = n
  once : ((listed db).map (fun e => (e.1, e.2.1))).Nodup
  chars : ∀ k v c s, HasVar cfg k v → (k, v.vkey, c, s) ∈ listed db → SameChars c v.chars
  types : ∀ k n t, findAttr db k n t ≠ none ↔ HasAttr cfg k n t
  changeable : ∀ k v a t a', HasVar cfg k v → a ∈ v.attrs → a.type = some t →
    findAttr db k v.vkey t = some a' → a'.muta = a.muta
  configured : ∀ k v m, HasVar cfg k v → m ∈ v.mons → ∃ d ∈ monitors db k v.vkey, SameMon d.mon m
  monitors : ∀ k v d, HasVar cfg k v → d ∈ monitors db k v.vkey → d.mon.cfg ≠ .custom →
    ∃ m ∈ v.mons, SameMon d.mon m

/-- All delta monitors have a reference value. -/
def DeltasHaveReference (cfg : Config) : Prop :=
  ∀ k v m, HasVar cfg k v → m ∈ v.mons → m.type = .delta → m.ref ≠ none

/-- A value of the configuration: of an attribute, or the default value of the variable. -/
def HasValue (v : CVar) (s : Str) : Prop := v.dflt = some s ∨ ∃ a ∈ v.attrs, a.value = some s

/-- The value has the form of its type; a value may be empty. -/
def OfType : DataType → Str → Prop
  | .boolean, s => s = [] ∨ s.map Char.toLower = "true".toList ∨ s.map Char.toLower = "false".toList
  | .integer, s => s = [] ∨ Verif.DM.isInteger s = true
  | .decimal, s => s = [] ∨ Verif.DM.isInteger s = true ∨ Verif.DM.isDecimal s = true
  | .dateTime, s => s = [] ∨ Verif.DM.isDateTime s = true
  | _, _ => True

/-- What is left after any number of starts with the same configuration that were interrupted at any point. -/
inductive Interrupted (cfg : Config) : File → File → Prop
  | none (f : File) : Interrupted cfg f f
  | crash {f f' f'' : File} (gone : Comp → Bool) : Interrupted cfg f f' → f'' ∈ crashed cfg gone f' →
    Interrupted cfg f f''

/-- The configuration does not ask for attributes that are constant or not persistent. -/
def NoFlags (cfg : Config) : Prop :=
  ∀ k v a, HasVar cfg k v → a ∈ v.attrs → a.persistent ≠ some false ∧ a.constant ≠ some true

end Verif.InitDb
