import Verif.DeviceModel.Model
/-
Model of the monitors of variables: `set_monitors`, `clear_monitors`, `clear_custom_monitors`,
`get_monitors` and `update_monitor_reference` of `lib/ocpp/v2/device_model.cpp`, the table
VARIABLE_MONITORING of `lib/ocpp/v2/device_model_storage_sqlite.cpp`, and SetMonitoringBase of
`lib/ocpp/v2/functional_blocks/diagnostics.cpp`.

The monitors in memory are kept per variable and id (`VariableMetaData::monitors`), those in the database per
id; the database does not fail.
-/
set_option linter.constructorNameAsVariable false

namespace Verif.Mon

open Verif.DM (Str Comp Vbl DataType Chars)

/-- `MonitorEnum` (`include/ocpp/v2/ocpp_enums.hpp` l.1672); the two types of OCPP 2.1 that the code never
compares with are one here. -/
inductive MType | upper | lower | delta | periodic | periodicAligned | target
deriving DecidableEq, Repr

/-- `VariableMonitorType` (`include/ocpp/v2/enums.hpp` l.16). -/
inductive Kind | hardWired | preconfigured | custom
deriving DecidableEq, Repr

/-- `VariableMonitoringMeta`: the monitor, who installed it, and the reference value of delta monitors. -/
structure Meta where
  id : Nat
  severity : Int
  transaction : Bool
  type : MType
  value : Rat
  kind : Kind
  ref : Option Str
deriving DecidableEq, Repr

/-- A monitor and the variable it belongs to: an element of `VariableMetaData::monitors`, or a row of
VARIABLE_MONITORING. -/
structure Item where
  comp : Comp
  var : Vbl
  mon : Meta
deriving DecidableEq, Repr

/-- Memory, table, and the sequence of AUTOINCREMENT (the largest id ever used). -/
structure Store where
  dm : Verif.DM.DM
  mem : List Item
  rows : List Item
  seq : Nat
deriving DecidableEq, Repr

/-- `SetMonitoringData`. -/
structure Request where
  id : Option Nat
  comp : Comp
  var : Vbl
  severity : Int
  transaction : Option Bool
  type : MType
  value : Rat
deriving DecidableEq, Repr

/-- `SetMonitoringStatusEnum`. -/
inductive Status | accepted | unknownComponent | unknownVariable | rejected | duplicate
deriving DecidableEq, Repr

/-- `SetMonitoringResult`. -/
structure Result where
  id : Option Nat
  status : Status
  type : MType
  comp : Comp
  var : Vbl
  severity : Int
deriving DecidableEq, Repr

/-! ### Text of a number -/

/-- The decimal digits of a number, by recursion on fuel. -/
def digitsAux : Nat → Nat → Str
  | 0, _ => []
  | fuel + 1, n =>
    if n < 10 then [Char.ofNat (48 + n)] else digitsAux fuel (n / 10) ++ [Char.ofNat (48 + n % 10)]

/-- The decimal digits of a number. -/
def digits (n : Nat) : Str := digitsAux (n + 1) n

/-- Six digits after the point. -/
def sixDigits (n : Nat) : Str := List.replicate (6 - (digits n).length) '0' ++ digits n

/-- `std::to_string(float)`: six digits after the point (rounded half up here). -/
def floatText (x : Rat) : Str :=
  let n := ((if x < 0 then -x else x) * 1000000 + 1 / 2).floor.toNat
  (if x < 0 then ['-'] else []) ++ digits (n / 1000000) ++ '.' :: sixDigits (n % 1000000)

/-! ### SetVariableMonitoring -/

/-- Whether the monitor value is valid (`device_model.cpp` l.769-802).  `std::signbit` is `< 0`: there is no
negative zero here. -/
def validMonitor (ch : Chars) (zero : Bool) (q : Request) : Bool :=
  if !ch.supportsMonitoring then false
  else if q.type == .delta && decide (q.value < 0) then false
  else if q.type == .delta && (ch.dataType != .decimal && ch.dataType != .integer) then true
  else if q.type == .periodic || q.type == .periodicAligned then true
  else match Verif.DM.validateValue ch (floatText q.value) zero with
    | none => false
    | some b => b

/-- The value of the Actual attribute: the reference of a delta monitor
(`device_model_storage_sqlite.cpp` l.291-299). -/
def actualValue (dm : Verif.DM.DM) (c : Comp) (v : Vbl) : Option Str :=
  match Verif.DM.find dm c v with
  | none => none
  | some e => match Verif.DM.attrOf e .actual with
    | none => none
    | some a => a.value

/-- The monitor that `set_monitoring_data` writes (l.345-362). -/
def newMeta (s : Store) (q : Request) (kind : Kind) (id : Nat) : Meta :=
  ⟨id, q.severity, q.transaction.getD false, q.type, q.value, kind,
   if q.type == .delta then actualValue s.dm q.comp q.var else none⟩

/-- `set_monitoring_data` (`device_model_storage_sqlite.cpp` l.280-363): INSERT OR REPLACE, by id if there is
one, else with the next id of the sequence. -/
def setMonitoringData (s : Store) (q : Request) (kind : Kind) : Option (Meta × Store) :=
  if q.type == .delta && (actualValue s.dm q.comp q.var) == none then none
  else
    let id := q.id.getD (s.seq + 1)
    let m := newMeta s q kind id
    some (m, { s with
      rows := s.rows.filter (fun r => r.mon.id != id) ++ [⟨q.comp, q.var, m⟩], seq := max s.seq id })

/-- `variable_it->second.monitors[id] = meta` (`device_model.cpp` l.852). -/
def setMem (mem : List Item) (i : Item) : List Item :=
  mem.filter (fun x => !(x.comp == i.comp && x.var == i.var && x.mon.id == i.mon.id)) ++ [i]

/-- A monitor of this type and severity exists on the variable (`device_model.cpp` l.814-821). -/
def isDuplicate (s : Store) (q : Request) : Bool :=
  s.mem.any (fun x => x.comp == q.comp && x.var == q.var && x.mon.type == q.type && x.mon.severity == q.severity)

/-- The id is that of some monitor in memory (`device_model.cpp` l.718-731). -/
def idFound (s : Store) (i : Nat) : Bool := s.mem.any (fun x => x.mon.id == i)

/-- The request names a monitor that does not exist (`device_model.cpp` l.709-730). -/
def idUnknown (s : Store) (q : Request) : Bool :=
  match q.id with
  | none => false
  | some i => !idFound s i

/-- One item of `set_monitors` (`device_model.cpp` l.702-865). -/
def setOne (kind : Kind) (s : Store) (q : Request) : Status × Option Nat × Store :=
  if idUnknown s q then (.rejected, q.id, s)
  else if !Verif.DM.hasComp s.dm q.comp then
    (if q.id.isSome then .rejected else .unknownComponent, q.id, s)
  else match Verif.DM.find s.dm q.comp q.var with
    | none => (if q.id.isSome then .rejected else .unknownVariable, q.id, s)
    | some e =>
      if !validMonitor e.chars (Verif.DM.allowZero q.comp q.var) q then (.rejected, q.id, s)
      else if q.id.isNone && isDuplicate s q then (.duplicate, q.id, s)
      else match setMonitoringData s q kind with
        | none => (.rejected, q.id, s)
        | some (m, s') => (.accepted, some m.id, { s' with mem := setMem s'.mem ⟨q.comp, q.var, m⟩ })

/-- `set_monitors`: all items in order. -/
def setMonitors (kind : Kind) : Store → List Request → List Result × Store
  | s, [] => ([], s)
  | s, q :: r =>
    let x := setOne kind s q
    let y := setMonitors kind x.2.2 r
    (⟨x.2.1, x.1, q.type, q.comp, q.var, q.severity⟩ :: y.1, y.2)

/-! ### ClearVariableMonitoring -/

/-- `ClearMonitoringStatusEnum`. -/
inductive CStatus | accepted | rejected | notFound
deriving DecidableEq, Repr

/-- `clear_variable_monitor` (`device_model_storage_sqlite.cpp` l.414-455) and the erasure from memory of all
variables (`device_model.cpp` l.985-995). -/
def clearOne (allowProtected : Bool) (s : Store) (i : Nat) : CStatus × Store :=
  if !(s.rows.any (fun r => r.mon.id == i)) then (.notFound, s)
  else if s.rows.any (fun r => r.mon.id == i && (allowProtected || r.mon.kind == .custom)) then
    (.accepted, { s with
      rows := s.rows.filter (fun r => !(r.mon.id == i && (allowProtected || r.mon.kind == .custom))),
      mem := s.mem.filter (fun x => x.mon.id != i) })
  else (.rejected, s)

/-- `clear_monitors` (`device_model.cpp` l.973-1006); the CSMS always calls it with
`allow_protected = false` (`diagnostics.cpp` l.366, `device_model.hpp` l.321). -/
def clearMonitors (allowProtected : Bool) : Store → List Nat → List (Nat × CStatus) × Store
  | s, [] => ([], s)
  | s, i :: r =>
    let x := clearOne allowProtected s i
    let y := clearMonitors allowProtected x.2 r
    ((i, x.1) :: y.1, y.2)

/-- `clear_custom_monitors` (`device_model.cpp` l.1008-1033). -/
def clearCustom (s : Store) : Store :=
  { s with rows := s.rows.filter (fun r => r.mon.kind != .custom),
           mem := s.mem.filter (fun x => x.mon.kind != .custom) }

/-- `MonitoringBaseEnum`. -/
inductive MBase | all | factoryDefault | hardWiredOnly
deriving DecidableEq, Repr

/-- `handle_set_monitoring_base_req` (`diagnostics.cpp` l.222-257); `stored` says that the variable
ActiveMonitoringBase could be written. -/
def setBase (s : Store) (stored : Bool) (b : MBase) : Bool × Store :=
  if !stored then (false, s)
  else if b == .hardWiredOnly || b == .factoryDefault then (true, clearCustom s) else (true, s)

/-- `update_monitor_reference` (`device_model.cpp` l.637-692): the first variable in memory that has a monitor
of that id decides; `trivial` types only (`&&` binds stronger than `||`, so only for sequence lists the
monitor type is looked at). -/
def trivialDelta (dm : Verif.DM.DM) (x : Item) : Bool :=
  match Verif.DM.find dm x.comp x.var with
  | none => false
  | some e => match e.chars.dataType with
    | .boolean | .string | .dateTime | .optionList | .memberList => true
    | .sequenceList => x.mon.type == .delta
    | _ => false

/-- The reference value of the monitors with this id is replaced. -/
def setRef (i : Nat) (v : Str) (x : Item) : Item :=
  if x.mon.id == i then { x with mon := { x.mon with ref := some v } } else x

/-- `update_monitor_reference`, continued: only the monitor found is updated in memory, the row of the id in
the database (`device_model_storage_sqlite.cpp` l.258-278). -/
def updateReference (s : Store) (i : Nat) (v : Str) : Store :=
  match s.mem.find? (fun x => x.mon.id == i) with
  | none => s
  | some x =>
    if trivialDelta s.dm x && s.rows.any (fun r => r.mon.id == i) then
      { s with rows := s.rows.map (setRef i v),
               mem := s.mem.map (fun y => if y == x then setRef i v y else y) }
    else s

/-- Restart: `get_device_model` reads the monitors of every variable (`device_model_storage_sqlite.cpp`
l.164-170). -/
def restart (s : Store) : Store :=
  { s with mem := s.rows.filter (fun r => (Verif.DM.find s.dm r.comp r.var).isSome) }

/-! ### GetMonitoringReport -/

/-- `MonitoringCriterionEnum`. -/
inductive Criterion | threshold | delta | periodic
deriving DecidableEq, Repr

/-- One criterion of `filter_criteria_monitor` (`device_model.cpp` l.48-64). -/
def criterionMatch (t : MType) : Criterion → Bool
  | .delta => t == .delta
  | .threshold => t == .lower || t == .upper
  | .periodic => t == .periodic || t == .periodicAligned

/-- `filter_criteria_monitor` (`device_model.cpp` l.38-67). -/
def criteriaMatch (ks : List Criterion) (m : Meta) : Bool :=
  ks.isEmpty || ks.any (criterionMatch m.type)

/-- `MonitoringData`. -/
structure Data where
  comp : Comp
  var : Vbl
  mons : List Meta
deriving DecidableEq, Repr

/-- The monitors of one variable, left out if there are none. -/
def dataOf (s : Store) (ks : List Criterion) (c : Comp) (v : Vbl) : Option Data :=
  let l := (s.mem.filter (fun x => x.comp == c && x.var == v && criteriaMatch ks x.mon)).map (·.mon)
  if l = [] then none else some ⟨c, v, l⟩

/-- One component/variable of the request (`device_model.cpp` l.898-949). -/
def dataFor (s : Store) (ks : List Criterion) (cv : Verif.DM.CompVar) : List Data :=
  match cv.var with
  | none => (List.filter (fun e => e.comp == cv.comp) s.dm).filterMap (fun e => dataOf s ks cv.comp e.var)
  | some v => if (Verif.DM.find s.dm cv.comp v).isSome then (dataOf s ks cv.comp v).toList else []

/-- `get_monitors` (`device_model.cpp` l.893-972). -/
def getMonitors (s : Store) (ks : List Criterion) (cvs : List Verif.DM.CompVar) : List Data :=
  if cvs = [] then s.dm.filterMap (fun e => dataOf s ks e.comp e.var)
  else cvs.flatMap (dataFor s ks)

/-! ### Histories -/

/-- What happens to the monitors, item by item: the CSMS sets or clears one, or selects a base; the station
writes a variable, updates a reference, or restarts. -/
inductive Op
  | set : Request → Op
  | clear : Nat → Op
  | base : Bool → MBase → Op
  | write : Comp → Vbl → Str → Op
  | reference : Nat → Str → Op
  | restart : Op
deriving Repr

/-- `set_monitors` is called for the CSMS with the default type, CustomMonitor (`device_model.hpp` l.302). -/
def step (s : Store) : Op → Store
  | .set q => (setOne .custom s q).2.2
  | .clear i => (clearOne false s i).2
  | .base st b => (setBase s st b).2
  | .write c v val => { s with dm := (Verif.DM.setValue s.dm c v .actual val true).2 }
  | .reference i v => updateReference s i v
  | .restart => restart s

def run (s : Store) (ops : List Op) : Store := ops.foldl step s

end Verif.Mon
