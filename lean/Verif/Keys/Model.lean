/-!
# Keys of the maps of the device model

Model of include/ocpp/v2/comparators.hpp and of the comparisons of `CiString` (include/ocpp/common/cistring.hpp l.55-78), of the map of
results in `Provisioning::set_variables_internal` (v2/functional_blocks/provisioning.cpp l.684-714) and of the look-up of a variable in the
device model (v2/device_model.cpp l.94-131, `device_model_map.find`).

Texts are lists of character codes (`CiString`s are printable ASCII, C44); `std::string` compares them code by code.
-/

namespace Verif.Keys

abbrev Text := List Nat

/-- `std::string::operator<`: code by code. -/
def textLt : Text → Text → Bool
  | [], [] => false
  | [], _ :: _ => true
  | _ :: _, [] => false
  | a :: l, b :: r => if a < b then true else if b < a then false else textLt l r

/-- The small letter for a capital one (ASCII). -/
def small (c : Nat) : Nat := if 65 ≤ c ∧ c ≤ 90 then c + 32 else c

/-- `iequals`, lib/ocpp/common/utils.cpp l.15-17: `CiString::operator==`. -/
def iequals (a b : Text) : Bool := a.map small == b.map small

/-- `std::optional::operator<`: no value is less than any value. -/
def optLt {α : Type} (lt : α → α → Bool) : Option α → Option α → Bool
  | _, none => false
  | none, some _ => true
  | some a, some b => lt a b

/-- `std::optional::operator==` with the `operator==` of the values. -/
def optEq {α : Type} (eq : α → α → Bool) : Option α → Option α → Bool
  | none, none => true
  | some a, some b => eq a b
  | _, _ => false

/-- `EVSE`. -/
structure Evse where
  id : Int
  connector : Option Int
deriving DecidableEq, Repr

/-- `operator==(EVSE)`, comparators.hpp l.11-13. -/
def evseEq (a b : Evse) : Bool := a.id == b.id && optEq (· == ·) a.connector b.connector

/-- `operator<(EVSE)`, l.15-20. -/
def evseLt (a b : Evse) : Bool :=
  if a.id ≠ b.id then decide (a.id < b.id) else optLt (fun x y => decide (x < y)) a.connector b.connector

/-- `Component`. -/
structure Component where
  name : Text
  inst : Option Text
  evse : Option Evse
deriving DecidableEq, Repr

/-- `operator==(Component)`, l.22-24: the names as they are (`get()`), the instances as `CiString`s. -/
def compEq (a b : Component) : Bool := a.name == b.name && optEq iequals a.inst b.inst && optEq evseEq a.evse b.evse

/-- `operator<(Component)`, l.26-34. `operator!=` of `CiString` compares the texts as they are (cistring.hpp l.70-73), also within
`std::optional`. -/
def compLt (a b : Component) : Bool :=
  if a.name ≠ b.name then textLt a.name b.name
  else if a.inst ≠ b.inst then optLt textLt a.inst b.inst
  else optLt evseLt a.evse b.evse

/-- `Variable`. -/
structure Variable where
  name : Text
  inst : Option Text
deriving DecidableEq, Repr

/-- `operator<(Variable)`, l.40-45. -/
def varLt (a b : Variable) : Bool :=
  if a.name ≠ b.name then textLt a.name b.name else optLt textLt a.inst b.inst

/-- The part of `SetVariableData` that `operator<` reads. -/
structure Key where
  comp : Component
  var : Variable
deriving DecidableEq, Repr

/-- `operator<(SetVariableData)`, l.63-68; `operator<(ComponentVariable)`, l.51-56, is the same for given variables. -/
def keyLt (a b : Key) : Bool := if compEq a.comp b.comp then varLt a.var b.var else compLt a.comp b.comp

/-- `response[key] = value` of a `std::map` with this order, as a sorted list: the place is the first key that is not less; the key is
there already if it is not greater either. (If the order is not a strict weak one, the behaviour of `std::map` is undefined, and what
follows is one of its behaviours.) -/
def assign {β : Type} (k : Key) (v : β) : List (Key × β) → List (Key × β)
  | [] => [(k, v)]
  | (k', v') :: m =>
    if keyLt k' k then (k', v') :: assign k v m
    else if keyLt k k' then (k, v) :: (k', v') :: m
    else (k', v) :: m

/-- The loop of `set_variables_internal`, l.689-713, for given results of the writes. -/
def results {β : Type} : List (Key × β) → List (Key × β) → List (Key × β)
  | m, [] => m
  | m, (k, v) :: l => results (assign k v m) l

/-- `device_model_map.find(component)` and `find(variable)`: an entry that is neither less nor greater. -/
def find {β : Type} (m : List (Key × β)) (c : Component) (v : Variable) : Option β :=
  (m.find? fun e => !compLt e.1.comp c && !compLt c e.1.comp && !varLt e.1.var v && !varLt v e.1.var).map (·.2)

end Verif.Keys
