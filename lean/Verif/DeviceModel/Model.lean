/-
The device model of OCPP 2.x: values of variables, GetVariables, SetVariables and reports.

Models `lib/ocpp/v2/device_model.cpp`, the helpers of `lib/ocpp/common/utils.cpp` it uses, the attribute
part of `lib/ocpp/v2/device_model_storage_sqlite.cpp` and the variable part of
`lib/ocpp/v2/functional_blocks/provisioning.cpp`.
-/
set_option linter.constructorNameAsVariable false

namespace Verif.DM

/-- `std::string` as the list of its characters. -/
abbrev Str := List Char

/-- `DataEnum` (`include/ocpp/v2/ocpp_enums.hpp`). -/
inductive DataType where
  | string | decimal | integer | dateTime | boolean | optionList | sequenceList | memberList
  deriving DecidableEq, Repr

/-- `AttributeEnum`. -/
inductive AttrType where
  | actual | target | minSet | maxSet
  deriving DecidableEq, Repr

/-- `MutabilityEnum`. -/
inductive Mut where
  | readOnly | writeOnly | readWrite
  deriving DecidableEq, Repr

/-- `SetVariableStatusEnum` without RebootRequired, which the device model never produces. -/
inductive SetStatus where
  | accepted | rejected | unknownComponent | unknownVariable | notSupportedAttributeType
  deriving DecidableEq, Repr

/-- `GetVariableStatusEnum`. -/
inductive GetStatus where
  | accepted | rejected | unknownComponent | unknownVariable | notSupportedAttributeType
  deriving DecidableEq, Repr

/-- `VariableCharacteristics` (`include/ocpp/v2/ocpp_types.hpp`); the unit is left out, `float` limits are
rational numbers. -/
structure Chars where
  dataType : DataType
  minLimit : Option Rat
  maxLimit : Option Rat
  valuesList : Option Str
  supportsMonitoring : Bool
  deriving DecidableEq, Repr

/-- `VariableAttribute`; persistent and constant are left out. -/
structure Attr where
  type : AttrType
  value : Option Str
  mutability : Option Mut
  deriving DecidableEq, Repr

/-- `Component`: name, instance, EVSE with optional connector.  The instance is compared exactly here;
`operator==` of `include/ocpp/v2/comparators.hpp` ignores its case. -/
structure Comp where
  name : Str
  inst : Option Str
  evse : Option (Int × Option Int)
  deriving DecidableEq, Repr

/-- `Variable`: name and instance. -/
structure Vbl where
  name : Str
  inst : Option Str
  deriving DecidableEq, Repr

/-- One variable of the device model: its place in `device_model_map` with the characteristics, and the
rows of VARIABLE_ATTRIBUTE that belong to it.  Variables are neither added nor removed while the charging
station runs, so memory and database list the same ones
(`device_model_storage_sqlite.cpp` l.100-176). -/
structure Entry where
  comp : Comp
  var : Vbl
  chars : Chars
  attrs : List Attr
  deriving DecidableEq, Repr

/-- The device model: `device_model_map` flattened (every component of it has at least one variable,
`device_model_storage_sqlite.cpp` l.172). -/
abbrev DM := List Entry

/-! ### Strings -/

/-- `std::isdigit`. -/
def isDigit (c : Char) : Bool := decide ('0'.toNat ≤ c.toNat ∧ c.toNat ≤ '9'.toNat)

/-- The number a run of digits stands for, as `strtol` accumulates it. -/
def natOf (ds : Str) : Nat := ds.foldl (fun a d => 10 * a + (d.toNat - '0'.toNat)) 0

/-- `is_integer` (`lib/ocpp/common/utils.cpp` l.19-31). -/
def isInteger : Str → Bool
  | [] => false
  | c :: r => if c = '+' ∨ c = '-' then r.all isDigit else (c :: r).all isDigit

/-- `std::stoi` on a string for which `is_integer` holds: `none` is an exception, either because there is
no digit or because the number does not fit into an `int`. -/
def stoi : Str → Option Int
  | [] => none
  | c :: r =>
    let ds := if c = '+' ∨ c = '-' then r else c :: r
    let n : Int := if c = '-' then - (natOf ds : Int) else natOf ds
    if ds = [] then none else if n < -2147483648 ∨ 2147483647 < n then none else some n

/-- The loop of `is_decimal_number` (`lib/ocpp/common/utils.cpp` l.55-67); `p` is true when a decimal
point has been seen. -/
def decimalLoop : Bool → Str → Bool
  | _, [] => true
  | p, c :: r => if c = '.' then (if p then false else decimalLoop true r)
                 else if isDigit c then decimalLoop p r else false

/-- `is_decimal_number` (`lib/ocpp/common/utils.cpp` l.45-68). -/
def isDecimal : Str → Bool
  | [] => false
  | c :: r => if c = '+' ∨ c = '-' then decimalLoop false r else decimalLoop false (c :: r)

/-- Digits, then optionally a point and digits: the value `strtof` reads; `none` if there is no digit. -/
def unsignedDecimal (v : Str) : Option Rat :=
  let i := v.takeWhile isDigit
  let f := match v.dropWhile isDigit with
    | '.' :: r => r.takeWhile isDigit
    | _ => []
  if i = [] ∧ f = [] then none
  else some ((natOf i : Rat) + (natOf f : Rat) / (10 ^ f.length : Nat))

/-- `std::stof` on a string for which `is_decimal_number` holds: `none` is an exception.  Simplified: the
number is not rounded to a `float`, and only the exception for too large numbers is kept
(`FLT_MAX` plus half a unit is `2^128 - 2^103`). -/
def stof : Str → Option Rat
  | [] => none
  | c :: r =>
    let ds := if c = '+' ∨ c = '-' then r else c :: r
    match unsignedDecimal ds with
    | none => none
    | some x => if ((2 ^ 128 - 2 ^ 103 : Nat) : Rat) ≤ x then none
                else some (if c = '-' then -x else x)

/-- `split_string` without trimming (`lib/ocpp/common/utils.cpp` l.81-94): the `std::getline` loop; `cur`
is the piece read so far.  A piece is pushed for every separator and one for the rest unless the rest is
empty. -/
def splitLoop : Str → Str → List Str
  | cur, [] => if cur = [] then [] else [cur.reverse]
  | cur, c :: r => if c = ',' then cur.reverse :: splitLoop [] r else splitLoop (c :: cur) r

/-- `split_string(s, ',')`. -/
def splitString (s : Str) : List Str := splitLoop [] s

/-- `convert_to_positive_size_t` (`lib/ocpp/common/utils.cpp` l.117-122); limits beyond `long long` are
not modelled. -/
def positiveSize (x : Rat) : Nat := if x < 0 then 0 else x.ceil.toNat

/-- An `int` compared with a `size_t` is converted to it: negative numbers become very large. -/
def toSizeT (i : Int) : Nat := if i < 0 then (18446744073709551616 + i).toNat else i.toNat

/-- Two digits that stand for a number between `lo` and `hi`. -/
def twoDigits (lo hi : Nat) (a b : Char) : Bool :=
  isDigit a && isDigit b && decide (lo ≤ natOf [a, b]) && decide (natOf [a, b] ≤ hi)

/-- The end of the expression in `is_rfc3339_datetime`: `Z` or an offset with optional colon. -/
def zoneMatch : Str → Bool
  | ['Z'] => true
  | [s, a, b, c, d] => (s == '+' || s == '-') && isDigit a && isDigit b && isDigit c && isDigit d
  | [s, a, b, ':', c, d] => (s == '+' || s == '-') && isDigit a && isDigit b && isDigit c && isDigit d
  | _ => false

/-- The optional fraction of at most three digits, then the zone. -/
def fractionMatch : Str → Bool
  | '.' :: r =>
    zoneMatch r ||
    (match r with
     | a :: r1 => isDigit a && (zoneMatch r1 ||
        (match r1 with
         | b :: r2 => isDigit b && (zoneMatch r2 ||
            (match r2 with
             | c :: r3 => isDigit c && zoneMatch r3
             | [] => false))
         | [] => false))
     | [] => false)
  | r => zoneMatch r

/-- `is_rfc3339_datetime` (`lib/ocpp/common/utils.cpp` l.70-79): the regular expression as a function. -/
def isDateTime : Str → Bool
  | y1 :: y2 :: y3 :: y4 :: '-' :: m1 :: m2 :: '-' :: d1 :: d2 :: 'T' :: h1 :: h2 :: ':' ::
      n1 :: n2 :: ':' :: s1 :: s2 :: rest =>
    isDigit y1 && isDigit y2 && isDigit y3 && isDigit y4 && twoDigits 1 12 m1 m2 && twoDigits 1 31 d1 d2
      && twoDigits 0 23 h1 h2 && twoDigits 0 59 n1 n2 && twoDigits 0 59 s1 s2 && fractionMatch rest
  | _ => false

/-! ### Validation -/

/-- The lower limit of strings and integers: `x < convert_to_positive_size_t(minLimit)` is false
(`device_model.cpp` l.232, 267). -/
def aboveMin (ch : Chars) (x : Nat) : Bool :=
  match ch.minLimit with
  | none => true
  | some m => !decide (x < positiveSize m)

/-- The upper limit of strings and integers (`device_model.cpp` l.236, 270). -/
def belowMax (ch : Chars) (x : Nat) : Bool :=
  match ch.maxLimit with
  | none => true
  | some m => !decide (positiveSize m < x)

/-- The limits of decimals (`device_model.cpp` l.250-255). -/
def decimalInLimits (ch : Chars) (x : Rat) : Bool :=
  (match ch.minLimit with | none => true | some m => !decide (x < m)) &&
  (match ch.maxLimit with | none => true | some m => !decide (m < x))

/-- `validate_value` (`device_model.cpp` l.229-309); `none` is an exception. -/
def validateValue (ch : Chars) (v : Str) (allowZero : Bool) : Option Bool :=
  match ch.dataType with
  | .string => some (aboveMin ch v.length && belowMax ch v.length)
  | .decimal =>
    if !isDecimal v then some false
    else match stof v with
      | none => none
      | some f => if allowZero && f == 0 then some true else some (decimalInLimits ch f)
  | .integer =>
    if !isInteger v then some false
    else match stoi v with
      | none => none
      | some i => if allowZero && i == 0 then some true
                  else some (aboveMin ch (toSizeT i) && belowMax ch (toSizeT i))
  | .dateTime => some (isDateTime v)
  | .boolean => some (v == "true".toList || v == "false".toList)
  | .optionList =>
    match ch.valuesList with
    | none => some true
    | some l => some ((splitString l).contains v)
  | .sequenceList | .memberList =>
    match ch.valuesList with
    | none => some true
    | some l => some ((splitString v).all (fun x => (splitString l).contains x))

/-- `allow_zero` (`device_model.cpp` l.16-24) with the names of
`lib/ocpp/v2/ctrlr_component_variables.cpp` l.362, 909, 927. -/
def allowZero (c : Comp) (v : Vbl) : Bool :=
  (c == ⟨"AlignedDataCtrlr".toList, none, none⟩ && v == ⟨"Interval".toList, none⟩) ||
  (c == ⟨"SampledDataCtrlr".toList, none, none⟩ && v == ⟨"TxUpdatedInterval".toList, none⟩) ||
  (c == ⟨"SampledDataCtrlr".toList, none, none⟩ && v == ⟨"TxEndedInterval".toList, none⟩)

/-! ### Reading and writing -/

/-- `device_model_map.find(component)` and `variable_map.find(variable)`. -/
def find (dm : DM) (c : Comp) (v : Vbl) : Option Entry :=
  List.find? (fun e => e.comp == c && e.var == v) dm

/-- Whether the component is in `device_model_map`. -/
def hasComp (dm : DM) (c : Comp) : Bool := dm.any (fun e => e.comp == c)

/-- `get_variable_attribute` (`device_model_storage_sqlite.cpp` l.179-187). -/
def attrOf (e : Entry) (a : AttrType) : Option Attr := e.attrs.find? (fun x => x.type == a)

/-- `request_value_internal` (`device_model.cpp` l.330-361). -/
def requestValue (dm : DM) (c : Comp) (v : Vbl) (a : AttrType) (allowWriteOnly : Bool) :
    GetStatus × Option Str :=
  if !hasComp dm c then (.unknownComponent, none)
  else match find dm c v with
    | none => (.unknownVariable, none)
    | some e =>
      match attrOf e a with
      | none => (.notSupportedAttributeType, none)
      | some at' =>
        match at'.value with
        | none => (.notSupportedAttributeType, none)
        | some val =>
          if !allowWriteOnly && at'.mutability == some .writeOnly then (.rejected, none)
          else (.accepted, some val)

/-- The UPDATE of `set_variable_attribute_value` on one attribute row. -/
def setAttr (a : AttrType) (val : Str) (x : Attr) : Attr :=
  if x.type == a then { x with value := some val } else x

/-- `set_variable_attribute_value` (`device_model_storage_sqlite.cpp` l.228-258); the update of an
existing row does not fail here. -/
def store (dm : DM) (c : Comp) (v : Vbl) (a : AttrType) (val : Str) : DM :=
  dm.map (fun e => if e.comp == c && e.var == v then { e with attrs := e.attrs.map (setAttr a val) } else e)

/-- `DeviceModel::set_value` (`device_model.cpp` l.373-433) without the listener, which is modelled with
the monitors. -/
def setValue (dm : DM) (c : Comp) (v : Vbl) (a : AttrType) (val : Str) (allowReadOnly : Bool) :
    SetStatus × DM :=
  if !hasComp dm c then (.unknownComponent, dm)
  else match find dm c v with
    | none => (.unknownVariable, dm)
    | some e =>
      match validateValue e.chars val (allowZero c v) with
      | none => (.rejected, dm)
      | some false => (.rejected, dm)
      | some true =>
        match attrOf e a with
        | none => (.notSupportedAttributeType, dm)
        | some at' =>
          match at'.mutability with
          | none => (.rejected, dm)
          | some m =>
            if m == .readOnly && !allowReadOnly then (.rejected, dm)
            else (.accepted, store dm c v a val)

/-- `allow_set_read_only_value` (`device_model.cpp` l.26-36). -/
def allowSetReadOnly (c : Comp) (v : Vbl) (a : AttrType) : Bool :=
  if a != .actual then false
  else c == ⟨"AuthCacheCtrlr".toList, none, none⟩ || c == ⟨"LocalAuthListCtrlr".toList, none, none⟩ ||
    c == ⟨"OCPPCommCtrlr".toList, none, none⟩ || c == ⟨"SecurityCtrlr".toList, none, none⟩ ||
    v == ⟨"AvailabilityState".toList, none⟩ || v == ⟨"Power".toList, none⟩

/-- `DeviceModel::set_read_only_value` (`device_model.cpp` l.440-449); `none` is the exception. -/
def setReadOnlyValue (dm : DM) (c : Comp) (v : Vbl) (a : AttrType) (val : Str) : Option (SetStatus × DM) :=
  if allowSetReadOnly c v a then some (setValue dm c v a val true) else none

/-! ### SetVariables and GetVariables -/

/-- `SetVariableData`. -/
structure SetData where
  comp : Comp
  var : Vbl
  type : Option AttrType
  value : Str
  deriving DecidableEq, Repr

/-- `SetVariableResult`. -/
structure SetResult where
  comp : Comp
  var : Vbl
  type : AttrType
  status : SetStatus
  deriving DecidableEq, Repr

/-- `value_or(AttributeEnum::Actual)`. -/
def typeOr (t : Option AttrType) : AttrType := t.getD .actual

/-- `response[set_variable_data] = set_variable_result` in a `std::map` whose order compares component and
variable only (`comparators.hpp` l.63-68): an existing key stays, its result is replaced.  The order of
the map is not modelled. -/
def upsert (m : List (SetData × SetResult)) (d : SetData) (r : SetResult) : List (SetData × SetResult) :=
  if m.any (fun x => x.1.comp == d.comp && x.1.var == d.var) then
    m.map (fun x => if x.1.comp == d.comp && x.1.var == d.var then (x.1, r) else x)
  else m ++ [(d, r)]

/-- The result for one item (`provisioning.cpp` l.692-708); `guard` is `validate_set_variable`. -/
def setOne (guard : DM → SetData → Bool) (allowReadOnly : Bool) (dm : DM) (d : SetData) : SetStatus × DM :=
  if guard dm d then setValue dm d.comp d.var (typeOr d.type) d.value allowReadOnly
  else (.rejected, dm)

/-- `set_variables_internal` (`provisioning.cpp` l.684-714). -/
def setVariables (guard : DM → SetData → Bool) (allowReadOnly : Bool) :
    DM → List (SetData × SetResult) → List SetData → DM × List (SetData × SetResult)
  | dm, m, [] => (dm, m)
  | dm, m, d :: r =>
    let x := setOne guard allowReadOnly dm d
    setVariables guard allowReadOnly x.2 (upsert m d ⟨d.comp, d.var, typeOr d.type, x.1⟩) r

/-- `handle_set_variables_req` (`provisioning.cpp` l.227-243): the device model, the results in the
response and the items for which the application is told that a variable changed
(`handle_variables_changed`, l.602-626). -/
def handleSetVariables (guard : DM → SetData → Bool) (dm : DM) (ds : List SetData) :
    DM × List SetResult × List SetData :=
  let x := setVariables guard false dm [] ds
  (x.1, x.2.map (·.2), (x.2.filter (fun p => p.2.status == .accepted)).map (·.1))

/-- `GetVariableData`. -/
structure GetData where
  comp : Comp
  var : Vbl
  type : Option AttrType
  deriving DecidableEq, Repr

/-- `GetVariableResult`. -/
structure GetResult where
  comp : Comp
  var : Vbl
  type : AttrType
  status : GetStatus
  value : Option Str
  deriving DecidableEq, Repr

/-- The result for one item of GetVariables. -/
def getOne (dm : DM) (d : GetData) : GetResult :=
  let x := requestValue dm d.comp d.var (typeOr d.type) false
  ⟨d.comp, d.var, typeOr d.type, x.1, if x.1 == .accepted then x.2 else none⟩

/-- `get_variables` (`provisioning.cpp` l.119-139). -/
def getVariables (dm : DM) (ds : List GetData) : List GetResult := ds.map (getOne dm)

/-- The answer to GetVariables: a result or a CALLERROR. -/
inductive GetAnswer where
  | results : List GetResult → GetAnswer
  | occurrenceViolation | formatViolation
  deriving DecidableEq, Repr

/-- `handle_get_variables_req` (`provisioning.cpp` l.245-277) with the two limits, which are `int`s
compared with `size_t`s. -/
def handleGetVariables (dm : DM) (maxItems maxBytes : Int) (size : Nat) (ds : List GetData) : GetAnswer :=
  if ds.length > toSizeT maxItems then .occurrenceViolation
  else if size > toSizeT maxBytes then .formatViolation
  else .results (getVariables dm ds)

/-! ### Reports -/

/-- `ReportBaseEnum`. -/
inductive Base where
  | full | configuration | summary
  deriving DecidableEq, Repr

/-- `ReportData`: component, variable, attributes; the characteristics are left out. -/
structure Report where
  comp : Comp
  var : Vbl
  attrs : List Attr
  deriving DecidableEq, Repr

/-- Comparison of `CiString`s: the case is ignored (`include/ocpp/common/cistring.hpp` l.55-63). -/
def ciEq (a b : Str) : Bool := a.map Char.toLower == b.map Char.toLower

/-- `include_in_summary_inventory` (`device_model.cpp` l.311-328). -/
def inSummary (c : Comp) (v : Vbl) (a : Attr) : Bool :=
  (c == ⟨"ChargingStation".toList, none, none⟩ && v == ⟨"AvailabilityState".toList, none⟩) ||
  (ciEq c.name "EVSE".toList && v == ⟨"AvailabilityState".toList, none⟩) ||
  (ciEq c.name "Connector".toList && v == ⟨"AvailabilityState".toList, none⟩) ||
  ((v == ⟨"Fallback".toList, none⟩ || v == ⟨"Overload".toList, none⟩ || v == ⟨"Problem".toList, none⟩ ||
      v == ⟨"Tripped".toList, none⟩) && a.value.getD [] == "true".toList)

/-- The value of a WriteOnly attribute is removed (`device_model.cpp` l.486-488). -/
def scrub (a : Attr) : Attr := if a.mutability == some .writeOnly then { a with value := none } else a

/-- What `get_base_report_data` does with one attribute (`device_model.cpp` l.478-496). -/
def baseAttr (b : Base) (c : Comp) (v : Vbl) (a : Attr) : Option Attr :=
  match b with
  | .full => some (scrub a)
  | .configuration =>
    if a.mutability == some .readWrite || a.mutability == some .writeOnly then some (scrub a) else none
  | .summary => if inSummary c v a then some a else none

/-- The report of one variable: left out if it has no attribute. -/
def reportOf (f : Entry → Attr → Option Attr) (e : Entry) : Option Report :=
  let as := e.attrs.filterMap (f e)
  if as = [] then none else some ⟨e.comp, e.var, as⟩

/-- `get_base_report_data` (`device_model.cpp` l.460-501). -/
def baseReport (b : Base) (dm : DM) : List Report :=
  dm.filterMap (reportOf (fun e a => baseAttr b e.comp e.var a))

/-- `ComponentVariable` of a request: component and optional variable. -/
structure CompVar where
  comp : Comp
  var : Option Vbl
  deriving DecidableEq, Repr

/-- One element of the test in `component_variables_match` (`device_model.cpp` l.116-130). -/
def cvMatches (c : Comp) (v : Vbl) (x : CompVar) : Bool :=
  (c == x.comp && x.var == none) ||
  (c == x.comp && x.var == some v) ||
  (c == x.comp &&
    (match x.var with | none => false | some w => w.inst == none && ciEq v.name w.name)) ||
  (x.comp.evse == none && ciEq c.name x.comp.name && c.inst == x.comp.inst && x.var == some v)

/-- `ComponentCriterionEnum`. -/
inductive Criterion where
  | active | available | enabled | problem
  deriving DecidableEq, Repr

/-- `component_criterion_enum_to_string` (`lib/ocpp/v2/ocpp_enums.cpp` l.1997-2010). -/
def criterionName : Criterion → Str
  | .active => "Active".toList
  | .available => "Available".toList
  | .enabled => "Enabled".toList
  | .problem => "Problem".toList

/-- One round of `component_criteria_match` (`device_model.cpp` l.93-106). -/
def criterionMatch (dm : DM) (c : Comp) (k : Criterion) : Bool :=
  match requestValue dm c ⟨criterionName k, none⟩ .actual false with
  | (.accepted, some v) => v.map Char.toLower == "true".toList
  | _ => k != .problem

/-- `component_criteria_match` (`device_model.cpp` l.88-108). -/
def criteriaMatch (dm : DM) (c : Comp) (ks : List Criterion) : Bool := ks.any (criterionMatch dm c)

/-- The variables `get_custom_report_data` reports. -/
def customSelected (dm : DM) (cvs : Option (List CompVar)) (ks : Option (List Criterion)) (e : Entry) : Bool :=
  (match ks with | none => true | some l => criteriaMatch dm e.comp l) &&
  (match cvs with | none => true | some l => l.any (cvMatches e.comp e.var))

/-- `get_custom_report_data` (`device_model.cpp` l.503-534). -/
def customReport (dm : DM) (cvs : Option (List CompVar)) (ks : Option (List Criterion)) : List Report :=
  (List.filter (customSelected dm cvs ks) dm).filterMap (reportOf (fun _ a => some a))

/-- `GenericDeviceModelStatusEnum`. -/
inductive GStatus where
  | accepted | rejected | notSupported | emptyResultSet
  deriving DecidableEq, Repr

/-- `handle_get_report_req` (`provisioning.cpp` l.292-350) after the size checks: the status of the
response and the report sent.  `init` is the content of `GetReportResponse::status`, which is read before
it is written (it has no initializer, `include/ocpp/v2/messages/GetReport.hpp` l.42); `unsupported` says
that one of the criteria is missing in `SupportedCriteria`. -/
def handleGetReport (init : GStatus) (unsupported : Bool) (dm : DM) (cvs : Option (List CompVar))
    (ks : Option (List Criterion)) : GStatus × Option (List Report) :=
  let st := if unsupported then .notSupported else init
  if st != .notSupported then
    let r := customReport dm cvs ks
    if r = [] then (.emptyResultSet, none) else (.accepted, some r)
  else (st, none)

end Verif.DM
