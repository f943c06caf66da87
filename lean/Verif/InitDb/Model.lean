import Verif.DeviceModel.Model
import Mathlib.Algebra.Order.Ring.Rat
/-
The database of the device model at a start of the charging station: the component configuration files are
merged, checked and brought into the database, which keeps what others have set meanwhile.

Models `lib/ocpp/v2/init_device_model_db.cpp` with the tables of
`config/v2/device_model_migrations/*.sql`, and the functions of
`lib/ocpp/v2/device_model_storage_sqlite.cpp` that read and write the same rows later.

Simplifications.  One counter stands for the AUTOINCREMENT counters of the tables.  Characteristics, which
have a row of their own per variable, are fields of the variable.  Rows are kept below the row their foreign
key points to (every foreign key of the schema is `ON DELETE CASCADE` towards the parent); a statement
`WHERE ID = ..` of the code acts on the row with this id below the parent it was read from.  The file
system, the migrations and failing SQL statements are not modelled, except that a database file can exist
without its schema.
-/
set_option linter.constructorNameAsVariable false

namespace Verif.InitDb

open Verif.DM (Str DataType AttrType Mut isInteger isDecimal isDateTime ciEq)

/-! ### Data -/

/-- `ComponentKey` (`include/ocpp/v2/init_device_model_db.hpp` l.47-62) without the id: what `operator<`
(l.1190-1193) and `is_same_component_key` (l.1393-1401) compare. -/
structure Key where
  name : Str
  inst : Option Str
  evse : Option Int
  conn : Option Int
  deriving DecidableEq, Repr

/-- What `is_same_variable` compares (l.1538-1540). -/
structure VKey where
  name : Str
  inst : Option Str
  deriving DecidableEq, Repr

/-- `VariableCharacteristics`; `float` limits are rational numbers. -/
structure Chars where
  dataType : DataType
  maxLimit : Option Rat
  minLimit : Option Rat
  supportsMonitoring : Bool
  unit : Option Str
  valuesList : Option Str
  deriving DecidableEq, Repr

/-- `MonitorEnum`. -/
inductive MonType where
  | upperThreshold | lowerThreshold | delta | periodic | periodicClockAligned
  deriving DecidableEq, Repr

/-- `VariableMonitorType`. -/
inductive MonCfg where
  | hardWired | preconfigured | custom
  deriving DecidableEq, Repr

/-- `VariableMonitoringMeta` without the id (`include/ocpp/v2/device_model_storage_interface.hpp` l.19-23). -/
structure Mon where
  severity : Int
  transaction : Bool
  type : MonType
  value : Rat
  cfg : MonCfg
  ref : Option Str
  deriving DecidableEq, Repr

/-- What `is_monitor_duplicate` compares (l.1464-1472). -/
structure MKey where
  type : MonType
  severity : Int
  deriving DecidableEq, Repr

/-- `VariableAttribute` of a component configuration file. -/
structure CAttr where
  type : Option AttrType
  muta : Option Mut
  value : Option Str
  persistent : Option Bool
  constant : Option Bool
  deriving DecidableEq, Repr

/-- `DeviceModelVariable` of a component configuration file (hpp l.75-95). -/
structure CVar where
  name : Str
  inst : Option Str
  chars : Chars
  attrs : List CAttr
  dflt : Option Str
  mons : List Mon
  source : Option Str
  deriving DecidableEq, Repr

/-- `std::map<ComponentKey, std::vector<DeviceModelVariable>>`, in the order of the map. -/
abbrev Config := List (Key × List CVar)

/-- A row of VARIABLE_ATTRIBUTE. -/
structure Attr where
  id : Nat
  type : Option AttrType
  muta : Option Mut
  persistent : Option Bool
  constant : Option Bool
  value : Option Str
  src : Option Str
  deriving DecidableEq, Repr

/-- A row of VARIABLE_MONITORING. -/
structure DMon where
  id : Nat
  mon : Mon
  deriving DecidableEq, Repr

/-- A row of VARIABLE with its characteristics, attributes and monitors. -/
structure Var where
  id : Nat
  name : Str
  inst : Option Str
  source : Option Str
  chars : Chars
  attrs : List Attr
  mons : List DMon
  deriving DecidableEq, Repr

/-- A row of COMPONENT with its variables. -/
structure Comp where
  id : Nat
  key : Key
  vars : List Var
  deriving DecidableEq, Repr

/-- The database; `next` is the id of the next inserted row. -/
structure DB where
  comps : List Comp
  next : Nat
  deriving DecidableEq, Repr

/-- The state of the transaction: the next id, and whether an exception has been thrown. -/
structure Ctx where
  next : Nat
  thrown : Bool
  deriving DecidableEq, Repr

/-- The attribute as `get_all_components_from_db` reads it (l.919-933). -/
def Attr.read (a : Attr) : CAttr := ⟨a.type, a.muta, a.value, a.persistent, a.constant⟩

/-! ### Comparisons -/

/-- `std::optional` of two `CiString`s compared by `operator==` (`cistring.hpp` l.60-62), which ignores the
case. -/
def optCiEq : Option Str → Option Str → Bool
  | none, none => true
  | some a, some b => ciEq a b
  | _, _ => false

/-- `is_attribute_different` (l.1422-1430). -/
def attrDiffers (a b : CAttr) : Bool :=
  !(decide (a.type = b.type) && decide (a.muta = b.muta) && optCiEq a.value b.value)

/-- `variable_has_same_attributes` (l.1439-1462). -/
def sameAttrs (l1 l2 : List CAttr) : Bool :=
  decide (l1.length = l2.length) && l1.all (fun a => l2.any (fun b => !attrDiffers b a))

/-- `std::numeric_limits<float>::epsilon()`. -/
def epsilon : Rat := 1 / 8388608

/-- `is_monitor_different` (l.1474-1492); the difference of the two `float`s is taken exactly. -/
def monDiffers (a b : Mon) : Bool :=
  if a.cfg ≠ b.cfg ∨ a.ref ≠ b.ref then true
  else if epsilon < a.value - b.value ∨ epsilon < b.value - a.value then true
  else decide (a.severity ≠ b.severity ∨ a.transaction ≠ b.transaction ∨ a.type ≠ b.type)

/-- `variable_has_same_monitors` (l.1494-1515). -/
def sameMons (l1 l2 : List Mon) : Bool :=
  decide (l1.length = l2.length) && l1.all (fun a => l2.any (fun b => !monDiffers a b))

/-- `is_characteristics_different` (l.1523-1530); unit and valuesList are `CiString`s. -/
def charsDiffer (a b : Chars) : Bool :=
  !(decide (a.supportsMonitoring = b.supportsMonitoring) && decide (a.dataType = b.dataType)
    && decide (a.maxLimit = b.maxLimit) && decide (a.minLimit = b.minLimit)
    && optCiEq a.unit b.unit && optCiEq a.valuesList b.valuesList)

/-- The name of a variable in the database. -/
def Var.vkey (v : Var) : VKey := ⟨v.name, v.inst⟩

/-- The name of a variable in the configuration. -/
def CVar.vkey (v : CVar) : VKey := ⟨v.name, v.inst⟩

/-- Type and severity of a monitor. -/
def Mon.mkey (m : Mon) : MKey := ⟨m.type, m.severity⟩

/-- `is_variable_different` (l.1548-1555), called with the variable of the database first (l.1070). -/
def varDiffers (d : Var) (v : CVar) : Bool :=
  !(decide (d.vkey = v.vkey) && !charsDiffer d.chars v.chars
    && sameMons (d.mons.map (·.mon)) v.mons && sameAttrs (d.attrs.map Attr.read) v.attrs)

/-! ### Reading the database -/

/-- The monitors `get_variable_monitors_from_db` returns: not the custom ones (l.1142-1146). -/
def DMon.visible (m : DMon) : Bool := decide (m.mon.cfg ≠ .custom)

/-- The `JOIN` with VARIABLE_ATTRIBUTE (l.850-854) yields no row for a variable without attributes. -/
def Var.visible (v : Var) : Bool := !v.attrs.isEmpty

/-- A variable as it is read (l.880-962). -/
def Var.read (v : Var) : Var := { v with mons := v.mons.filter DMon.visible }

/-- A component appears in the result with its first visible variable. -/
def Comp.visible (c : Comp) : Bool := c.vars.any Var.visible

/-- A component as it is read. -/
def Comp.read (c : Comp) : Comp := { c with vars := (c.vars.filter Var.visible).map Var.read }

/-- `get_all_components_from_db` (l.840-975).  Two rows of COMPONENT with the same key, or two variables of a
component with the same name, of which both have attributes are merged by the code; here they stay apart. -/
def readAll (comps : List Comp) : List Comp := (comps.filter Comp.visible).map Comp.read

/-! ### The two loops that bring rows in line with the configuration

They occur in `remove_not_existing_components_from_db` and `insert_components` (l.220-235, 1002-1010),
`update_component_variables` (l.1036-1076), `update_attributes` (l.562-594) and `update_variable_monitors`
(l.789-824). -/

/-- What the loops need to know about the rows (`O`) and the entries of the configuration (`N`). -/
structure Sync (N O K : Type) where
  keyN : N → K
  keyO : O → K
  oid : O → Nat
  ins : N → Ctx → O × Ctx
  upd : N → O → O → Ctx → O × Ctx

section
variable {N O K : Type} [DecidableEq K]

/-- First loop: rows read from the database that have no entry in the configuration are deleted by id. -/
def Sync.delete (s : Sync N O K) (olds : List O) (news : List N) (cur : List O) : List O :=
  olds.foldl (fun cur d =>
    if news.any (fun n => decide (s.keyN n = s.keyO d)) then cur
    else cur.filter (fun o => decide (s.oid o ≠ s.oid d))) cur

/-- An `UPDATE .. WHERE ID = ..` with all that follows for this row. -/
def Sync.modify (s : Sync N O K) (i : Nat) (f : O → Ctx → O × Ctx) : List O → Ctx → List O × Ctx
  | [], x => ([], x)
  | o :: r, x =>
    if s.oid o = i then ((f o x).1 :: r, (f o x).2)
    else (o :: (Sync.modify s i f r x).1, (Sync.modify s i f r x).2)

/-- Second loop: an entry without a row is inserted, the row of the others is compared and updated. -/
def Sync.apply (s : Sync N O K) (olds : List O) : List N → List O → Ctx → List O × Ctx
  | [], cur, x => (cur, x)
  | n :: ns, cur, x =>
    match olds.find? (fun d => decide (s.keyO d = s.keyN n)) with
    | none => Sync.apply s olds ns (cur ++ [(s.ins n x).1]) (s.ins n x).2
    | some d =>
      Sync.apply s olds ns (s.modify (s.oid d) (s.upd n d) cur x).1 (s.modify (s.oid d) (s.upd n d) cur x).2

/-- Both loops. -/
def Sync.run (s : Sync N O K) (olds : List O) (news : List N) (cur : List O) (x : Ctx) : List O × Ctx :=
  s.apply olds news (s.delete olds news cur) x

/-- A loop that inserts all entries. -/
def insertAll (ins : N → Ctx → O × Ctx) : List N → Ctx → List O × Ctx
  | [], x => ([], x)
  | n :: ns, x => ((ins n x).1 :: (insertAll ins ns (ins n x).2).1, (insertAll ins ns (ins n x).2).2)
end

/-! ### Attributes -/

/-- The source written with values of the configuration (l.692). -/
def fromConfig : Str := "default".toList

/-- The value an attribute gets from the configuration: `has_attribute_actual_value` (l.1563-1568) and the
choice of the value (l.546-551, 650-656). -/
def configValue (a : CAttr) (dflt : Option Str) : Option Str :=
  match a.value with
  | some v => some v
  | none => if a.type = some .actual then dflt else none

/-- `insert_variable_attribute_value` (l.684-718). -/
def setConfigValue (v : Str) (a : Attr) : Attr :=
  if a.src = some fromConfig ∨ a.src = some [] ∨ a.src = none then
    { a with
      value := some v
      src := some fromConfig }
  else a

/-- The statement is only executed if there is a value (l.546, 650). -/
def applyValue (v : Option Str) (a : Attr) : Attr :=
  match v with
  | none => a
  | some v => setConfigValue v a

/-- `insert_attribute` (l.513-552): persistent and not constant, whatever the configuration says. -/
def insertAttr (dflt : Option Str) (a : CAttr) (x : Ctx) : Attr × Ctx :=
  (applyValue (configValue a dflt) ⟨x.next, a.type, a.muta, some true, some false, none, none⟩,
   { x with next := x.next + 1 })

/-- `update_attribute` (l.596-660); `d` is the row as it was read. -/
def updateAttr (dflt : Option Str) (a : CAttr) (d cur : Attr) : Attr :=
  applyValue (configValue a dflt)
    { cur with
      muta := a.muta
      type := a.type
      persistent := some ((a.persistent.or d.persistent).getD true)
      constant := some ((a.constant.or d.constant).getD false) }

/-- The body of the second loop of `update_attributes` (l.578-593). -/
def attrSync (dflt : Option Str) : Sync CAttr Attr (Option AttrType) where
  keyN := CAttr.type
  keyO := Attr.type
  oid := Attr.id
  ins := insertAttr dflt
  upd := fun a d cur x => (if attrDiffers a d.read then updateAttr dflt a d cur else cur, x)

/-! ### Monitors -/

/-- `insert_variable_monitor` (l.720-749): a delta monitor without a reference value is an exception. -/
def insertMon (m : Mon) (x : Ctx) : DMon × Ctx :=
  (⟨x.next, m⟩, ⟨x.next + 1, x.thrown || (decide (m.type = .delta) && m.ref.isNone)⟩)

/-- The body of the second loop of `update_variable_monitors` with `update_variable_monitor` (l.758-787,
806-823). -/
def monSync : Sync Mon DMon MKey where
  keyN := Mon.mkey
  keyO := fun d => d.mon.mkey
  oid := DMon.id
  ins := insertMon
  upd := fun m d cur x => (if monDiffers m d.mon then { cur with mon := m } else cur, x)

/-! ### Variables -/

/-- An empty instance is stored as NULL (l.264-268, 407-411, 453-457). -/
def storedInst : Option Str → Option Str
  | some [] => none
  | i => i

/-- `insert_variable` (l.392-429). -/
def insertVar (v : CVar) (x : Ctx) : Var × Ctx :=
  (⟨x.next, v.name, storedInst v.inst, v.source, v.chars,
    (insertAll (insertAttr v.dflt) v.attrs { x with next := x.next + 1 }).1,
    (insertAll insertMon v.mons (insertAll (insertAttr v.dflt) v.attrs { x with next := x.next + 1 }).2).1⟩,
   (insertAll insertMon v.mons (insertAll (insertAttr v.dflt) v.attrs { x with next := x.next + 1 }).2).2)

/-- The attributes in `update_variable` (l.477-480). -/
def updateAttrs (v : CVar) (d cur : Var) (x : Ctx) : List Attr × Ctx :=
  if sameAttrs v.attrs (d.attrs.map Attr.read) then (cur.attrs, x)
  else (attrSync v.dflt).run d.attrs v.attrs cur.attrs x

/-- The monitors in `update_variable` (l.482-485). -/
def updateMons (v : CVar) (d cur : Var) (x : Ctx) : List DMon × Ctx :=
  if sameMons v.mons (d.mons.map (·.mon)) then (cur.mons, x)
  else monSync.run d.mons v.mons cur.mons x

/-- `update_variable` (l.431-486). -/
def updateVar (v : CVar) (d cur : Var) (x : Ctx) : Var × Ctx :=
  (⟨cur.id, v.name, storedInst v.inst, v.source,
    if charsDiffer v.chars d.chars then v.chars else cur.chars,
    (updateAttrs v d cur x).1,
    (updateMons v d cur (updateAttrs v d cur x).2).1⟩,
   (updateMons v d cur (updateAttrs v d cur x).2).2)

/-- The body of the second loop of `update_component_variables` (l.1061-1075). -/
def varSync : Sync CVar Var VKey where
  keyN := CVar.vkey
  keyO := Var.vkey
  oid := Var.id
  ins := insertVar
  upd := fun v d cur x => if varDiffers d v then updateVar v d cur x else (cur, x)

/-! ### Components -/

/-- `insert_component` (l.237-284). -/
def insertComp (e : Key × List CVar) (x : Ctx) : Comp × Ctx :=
  (⟨x.next, { e.1 with inst := storedInst e.1.inst },
    (insertAll insertVar e.2 { x with next := x.next + 1 }).1⟩,
   (insertAll insertVar e.2 { x with next := x.next + 1 }).2)

/-- The body of the loop of `insert_components` (l.223-234) with `update_component_variables` (l.1036-1076). -/
def compSync : Sync (Key × List CVar) Comp Key where
  keyN := Prod.fst
  keyO := Comp.key
  oid := Comp.id
  ins := insertComp
  upd := fun e d cur x =>
    ({ cur with vars := (varSync.run d.vars e.2 cur.vars x).1 }, (varSync.run d.vars e.2 cur.vars x).2)

/-- `remove_not_existing_components_from_db` (l.1002-1010): each `DELETE` is a transaction of its own. -/
def removeComps (cfg : Config) (comps : List Comp) : List Comp :=
  compSync.delete (readAll comps) cfg comps

/-- The transaction of `initialize_database` (l.98-100) with `insert_components`. -/
def insertComponents (cfg : Config) (olds : List Comp) (comps : List Comp) (next : Nat) : List Comp × Ctx :=
  compSync.apply olds cfg comps ⟨next, false⟩

/-! ### Checking the configuration -/

/-- `is_boolean` (`lib/ocpp/common/utils.cpp` l.105-107). -/
def isBoolean (v : Str) : Bool := ciEq v "true".toList || ciEq v "false".toList

/-- `value_is_of_type` (l.1355-1378). -/
def valueIsOfType (v : Str) : DataType → Bool
  | .string | .optionList | .sequenceList | .memberList => true
  | .decimal => v.isEmpty || isInteger v || isDecimal v
  | .integer => v.isEmpty || isInteger v
  | .dateTime => v.isEmpty || isDateTime v
  | .boolean => v.isEmpty || isBoolean v

/-- `check_integrity_value_type` (l.1322-1347): `true` if there is no error. -/
def integrityVar (v : CVar) : Bool :=
  (match v.dflt with | none => true | some d => valueIsOfType d v.chars.dataType)
  && v.attrs.all (fun a => match a.value with | none => true | some w => valueIsOfType w v.chars.dataType)

/-- `check_integrity` (l.1281-1315). -/
def integrity (cfg : Config) : Bool := cfg.all (fun e => e.2.all integrityVar)

/-! ### The configuration files -/

/-- `std::map::insert` (l.177): the first of two files with the same component stays. -/
def addFile (m : Config) (f : Key × List CVar) : Config :=
  if m.any (fun e => decide (e.1 = f.1)) then m else m ++ [f]

/-- `read_component_config` (l.167-189) for files with properties; the order of the map, which the result
does not depend on, is that of the files. -/
def readFiles (fs : List (Key × List CVar)) : Config := fs.foldl addFile []

/-- `components.merge(standardized_components_map)` in `get_all_component_configs` (l.193-218). -/
def allConfigs (standardized custom : List (Key × List CVar)) : Config :=
  readFiles custom ++ (readFiles standardized).filter (fun e => !(readFiles custom).any (fun f => decide (f.1 = e.1)))

/-! ### A start -/

/-- How `initialize_database` ends: normally or with an exception, and the database then. -/
inductive Result where
  | done (db : DB)
  | thrown (db : DB)
  deriving DecidableEq, Repr

/-- The database after the removals. -/
def DB.removed (cfg : Config) (db : DB) : DB := { db with comps := removeComps cfg db.comps }

/-- `initialize_database` (l.77-101) on a database with a schema, not to be deleted first
(`device_model_storage_sqlite.cpp` l.27).  An exception inside the transaction undoes the transaction. -/
def initDb (cfg : Config) (db : DB) : Result :=
  if integrity cfg = false then .thrown db
  else
    if (insertComponents cfg (readAll db.comps) (removeComps cfg db.comps) db.next).2.thrown then
      .thrown (db.removed cfg)
    else
      .done ⟨(insertComponents cfg (readAll db.comps) (removeComps cfg db.comps) db.next).1,
        (insertComponents cfg (readAll db.comps) (removeComps cfg db.comps) db.next).2.next⟩

/-- The database file: not there, opened once but without the schema (`user_version` 0), or in use. -/
inductive File where
  | absent
  | noSchema
  | ready (db : DB)
  deriving DecidableEq, Repr

/-- The database after the migrations (`1_up-initial.sql`). -/
def emptyDb : DB := ⟨[], 0⟩

/-- How a start ends, on the level of the file. -/
inductive Started where
  | up (db : DB)
  | exception (f : File)
  deriving DecidableEq, Repr

/-- The result for the file. -/
def Result.file : Result → Started
  | .done db => .up db
  | .thrown db => .exception (.ready db)

/-- `execute_init_sql` (l.103-131) without deletion, then the rest: an existing file without a version is
refused. -/
def startUp (cfg : Config) : File → Started
  | .absent => (initDb cfg emptyDb).file
  | .noSchema => .exception .noSchema
  | .ready db => (initDb cfg db).file

/-- Some of the components that are not in the configuration have been removed. -/
def DB.partlyRemoved (cfg : Config) (gone : Comp → Bool) (db : DB) : DB :=
  { db with comps := db.comps.filter (fun c => !(gone c && c.visible && !cfg.any (fun e => decide (e.1 = c.key)))) }

/-- The files a crash during the start can leave behind.  Opening creates an empty file (SQLite), the
migrations are applied in one transaction, each removal is committed by itself (`gone` says which components
have been removed already), the rest is one transaction; nothing is removed if the check fails. -/
def crashed (cfg : Config) (gone : Comp → Bool) : File → List File
  | .absent => [.absent, .noSchema, .ready emptyDb]
  | .noSchema => [.noSchema]
  | .ready db => if integrity cfg then [.ready db, .ready (db.partlyRemoved cfg gone)] else [.ready db]

/-! ### Reading and writing later (`device_model_storage_sqlite.cpp`) -/

/-- `get_component_id` and `get_variable_id` (l.51-98): the first component with the key and in it the first
variable with the name. -/
def findVar (db : DB) (k : Key) (v : VKey) : Option Var :=
  match db.comps.find? (fun c => decide (c.key = k)) with
  | none => none
  | some c => c.vars.find? (fun w => decide (w.vkey = v))

/-- `get_variable_attribute` (l.178-186). -/
def findAttr (db : DB) (k : Key) (v : VKey) (t : AttrType) : Option Attr :=
  match findVar db k v with
  | none => none
  | some w => w.attrs.find? (fun a => decide (a.type = some t))

/-- `get_device_model` (l.100-176): what it lists, with characteristics and source. -/
def listed (db : DB) : List (Key × VKey × Chars × Option Str) :=
  db.comps.flatMap (fun c => c.vars.map (fun v => (c.key, v.vkey, v.chars, v.source)))

/-- `get_monitoring_data` without criteria (l.343-386). -/
def monitors (db : DB) (k : Key) (v : VKey) : List DMon :=
  match findVar db k v with
  | none => []
  | some w => w.mons

/-- Changes the first element with a property. -/
def modifyFirst {A : Type} (p : A → Bool) (f : A → A) : List A → List A
  | [] => []
  | a :: r => if p a then f a :: r else a :: modifyFirst p f r

/-- Changes the variable `get_variable_id` finds. -/
def onVar (k : Key) (v : VKey) (f : Var → Var) (comps : List Comp) : List Comp :=
  modifyFirst (fun c => decide (c.key = k))
    (fun c => { c with vars := modifyFirst (fun w => decide (w.vkey = v)) f c.vars }) comps

/-- The statement of `set_variable_attribute_value` (l.228-258) for one row. -/
def writeValue (t : AttrType) (value src : Str) (a : Attr) : Attr :=
  if a.type = some t then
    { a with
      value := some value
      src := some src }
  else a

/-- `set_variable_attribute_value`. -/
def setValue (k : Key) (v : VKey) (t : AttrType) (value src : Str) (db : DB) : DB :=
  { db with comps := onVar k v (fun w => { w with attrs := w.attrs.map (writeValue t value src) }) db.comps }

/-- `set_monitoring_data` (l.281-341) for a new custom monitor; the reference value is the actual value
for a delta monitor. -/
def addMonitor (k : Key) (v : VKey) (m : Mon) (db : DB) : DB :=
  if (findVar db k v).isSome then
    { comps := onVar k v (fun w => { w with mons := w.mons ++ [⟨db.next, { m with cfg := .custom }⟩] }) db.comps
      next := db.next + 1 }
  else db

/-- Applies a change to all monitors of all variables. -/
def onMons (f : List DMon → List DMon) (db : DB) : DB :=
  { db with comps := db.comps.map (fun c => { c with vars := c.vars.map (fun w => { w with mons := f w.mons }) }) }

/-- `clear_variable_monitor` (l.388-428). -/
def clearMonitor (i : Nat) (allowProtected : Bool) (db : DB) : DB :=
  onMons (fun l => l.filter (fun m => !(decide (m.id = i) && (allowProtected || decide (m.mon.cfg = .custom))))) db

/-- `update_monitoring_reference` (l.260-279). -/
def setReference (i : Nat) (r : Str) (db : DB) : DB :=
  onMons (fun l => l.map (fun m => if m.id = i then { m with mon := { m.mon with ref := some r } } else m)) db

end Verif.InitDb
