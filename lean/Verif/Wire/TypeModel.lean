import Verif.Wire.EnumTables

/-!
Conversion of messages and types to and from JSON: lib/ocpp/v2/ocpp_types.cpp, lib/ocpp/v2/messages/*.cpp, lib/ocpp/v16/ocpp_types.cpp,
lib/ocpp/v16/messages/*.cpp.  All these functions have the same form; what differs is in tables (TypeTables.lean): the members declared in the
header, the statements of `to_json`, the statements of `from_json`.

The JSON library (nlohmann) is not part of the repository; its conversions are modelled as documented: numbers are integers or decimals, conversion
to a 32 bit integer is a `static_cast`, booleans are accepted as numbers, loops over something that is not an array take the members of an object or
the value itself.  Decimals are rationals (float and double in the code).  Times are milliseconds; their text is a parameter.
-/

namespace Verif.Wire

/-- A JSON value in memory. -/
inductive J
  | null
  | bool (b : Bool)
  | int (i : Int)
  | dec (q : Rat)
  | str (s : String)
  | arr (l : List J)
  | obj (l : List (String × J))
  deriving Repr

/-- The C++ type of a member without `std::optional` and `std::vector`: `std::string` or `CiString<max>`, `std::int32_t`, `float`, `bool`, `json`,
`ocpp::DateTime`, an enumeration, a struct. -/
inductive Base
  | str (max : Option Nat)
  | int
  | num
  | bool
  | json
  | time
  | enum (e : String)
  | struct (s : String)
  deriving DecidableEq, Repr

/-- A value of such a type, or a vector of them; a struct has its members in the order of declaration, without the `std::optional` that are empty. -/
inductive V
  | str (s : String)
  | int (i : Int)
  | num (q : Rat)
  | bool (b : Bool)
  | json (j : J)
  | time (ms : Int)
  | enum (v : String)
  | list (l : List V)
  | struct (l : List (String × V))

/-- A member in the header. -/
structure Field where
  name : String
  opt : Bool
  vec : Bool
  base : Base
  deriving DecidableEq, Repr

/-- How a statement converts: implicitly; `to_rfc3339` and `DateTime`; the conversions of an enumeration; or like `value` of `VariableAttribute`
(v2/ocpp_types.cpp l.4395-4413). -/
inductive Conv
  | plain
  | time
  | enum (e : String)
  | lenient
  deriving DecidableEq, Repr

/-- A statement of `to_json` or `from_json`: key, member, under `if`, in a loop, conversion. -/
structure Access where
  key : String
  member : String
  opt : Bool
  loop : Bool
  conv : Conv
  deriving DecidableEq, Repr

/-- A struct. -/
structure TypeTable where
  name : String
  fields : List Field
  toJ : List Access
  fromJ : List Access
  deriving DecidableEq, Repr

/-- The text of a time and back. -/
structure Times where
  write : Int → String
  read : String → Option Int

/-- All of a list, or `none`. -/
def allSome : List (Option α) → Option (List α)
  | [] => some []
  | none :: _ => none
  | some a :: r => (allSome r).map (a :: ·)

/-- The value of a key. -/
def get (l : List (String × α)) (k : String) : Option α :=
  match l with
  | [] => none
  | (a, b) :: r => if a = k then some b else get r k

/-- `j.contains(key)`, `j.at(key)`. -/
def J.get : J → String → Option J
  | .obj l, k => Wire.get l k
  | _, _ => none

/-- `static_cast<std::int32_t>` of an integer of 64 bits. -/
def wrap (i : Int) : Int := (i + 2147483648) % 4294967296 - 2147483648

/-- The same of a double: towards zero; undefined if the result is out of range. -/
def truncate (q : Rat) : Option Int :=
  let i := if q < 0 then -((-q).floor) else q.floor
  if -2147483648 ≤ i ∧ i ≤ 2147483647 then some i else none

/-- The enumeration of a name. -/
def findEnum (e : String) : Option EnumTable := enums.find? (fun t => t.name == e)

/-- A member to JSON (`{"key", k.member}`, `j["key"] = …`): `e` converts a value or an element of a vector. -/
def encVal (e : Conv → Base → V → Option J) (a : Access) (f : Field) (v : V) : Option J :=
  if f.vec then match v with
    | .list vs => (allSome (vs.map (e a.conv f.base))).map J.arr
    | _ => none
  else e a.conv f.base v

/-- A statement of `to_json`: the pair it adds to the object, none if the member is an empty `std::optional`. -/
def encMember (e : Conv → Base → V → Option J) (fields : List Field) (l : List (String × V)) (a : Access) : Option (List (String × J)) :=
  match fields.find? (fun f => f.name == a.member) with
  | none => none
  | some f => match get l a.member with
    | none => if a.opt && f.opt then some [] else none
    | some v => (encVal e a f v).map (fun j => [(a.key, j)])

/-- The value of a member, converted to JSON by the expression `c`; the first argument bounds the nesting.  `none`: not a value of the type, or an
expression that does not compile, or an exception. -/
def enc (types : List TypeTable) (tm : Times) : Nat → Conv → Base → V → Option J
  | 0, _, _, _ => none
  | n + 1, c, b, v => match c, b, v with
    | .plain, .str _, .str s => some (.str s)
    | .plain, .int, .int i => some (.int i)
    | .plain, .num, .num q => some (.dec q)
    | .plain, .bool, .bool x => some (.bool x)
    | .plain, .json, .json j => some j
    | .time, .time, .time t => some (.str (tm.write t))
    | .enum e, .enum e', .enum x => if e = e' then (findEnum e).bind (fun t => (t.write x).map J.str) else none
    | .plain, .struct s, .struct l => match types.find? (fun t => t.name == s) with
      | none => none
      | some t => (allSome (t.toJ.map (encMember (enc types tm n) t.fields l))).map (fun ps => .obj ps.flatten)
    | _, _, _ => none

/-- What a loop `for (const auto& val : j)` takes. -/
def J.items : J → List J
  | .arr l => l
  | .obj l => l.map (·.2)
  | .null => []
  | j => [j]

/-- A member after `from_json`: as assigned, or an empty `std::optional`, vector or text; `none`: it has no default value and was not assigned. -/
def arrangeOne (l : List (String × V)) (f : Field) : Option (List (String × V)) :=
  match get l f.name with
  | some v => some [(f.name, v)]
  | none =>
    if f.opt then some []
    else if f.vec then some [(f.name, .list [])]
    else match f.base with
      | .str _ => some [(f.name, .str "")]
      | _ => none

/-- The members in the order of declaration. -/
def arrange (fields : List Field) (l : List (String × V)) : Option (List (String × V)) :=
  (allSome (fields.map (arrangeOne l))).map List.flatten

/-- A text is assigned to a string: `StringConversionException` if it is too long (bytes). -/
def text (max : Option Nat) (s : String) : Option V :=
  match max with
  | none => some (.str s)
  | some m => if s.utf8ByteSize ≤ m then some (.str s) else none

/-- A member from JSON: `d` converts a value or an element of an array. -/
def decVal (d : Conv → Base → J → Option V) (a : Access) (f : Field) (x : J) : Option V :=
  if f.vec then
    if a.loop then (allSome (x.items.map (d a.conv f.base))).map V.list
    else match x with
      | .arr l => (allSome (l.map (d a.conv f.base))).map V.list
      | _ => none
  else d a.conv f.base x

/-- A statement of `from_json`: the member it assigns; none if it is under `if (j.contains(…))` and there is no such key. -/
def decMember (d : Conv → Base → J → Option V) (fields : List Field) (j : J) (a : Access) : Option (List (String × V)) :=
  match fields.find? (fun f => f.name == a.member) with
  | none => none
  | some f => match j.get a.key with
    | none => if a.opt then some [] else none
    | some x => (decVal d a f x).map (fun v => [(a.member, v)])

/-- A JSON value, converted to a value of the type by the expression `c`; `dump` makes a text of a JSON value.  `none` is an exception or undefined
behaviour. -/
def dec (types : List TypeTable) (tm : Times) (dump : J → String) : Nat → Conv → Base → J → Option V
  | 0, _, _, _ => none
  | n + 1, c, b, j => match c, b with
    | .plain, .str max => match j with
      | .str s => text max s
      | _ => none
    | .lenient, .str max => match j with
      | .str s => text max s
      | .bool x => text max (if x then "true" else "false")
      | j => text max (dump j)
    | .plain, .int => match j with
      | .int i => some (.int (wrap i))
      | .dec q => (truncate q).map V.int
      | .bool x => some (.int (if x then 1 else 0))
      | _ => none
    | .plain, .num => match j with
      | .int i => some (.num i)
      | .dec q => some (.num q)
      | .bool x => some (.num (if x then 1 else 0))
      | _ => none
    | .plain, .bool => match j with
      | .bool x => some (.bool x)
      | _ => none
    | .plain, .json => some (.json j)
    | .time, .time => match j with
      | .str s => (tm.read s).map V.time
      | _ => none
    | .enum e, .enum e' => match j with
      | .str s => if e = e' then (findEnum e).bind (fun t => (t.read s).map V.enum) else none
      | _ => none
    | .plain, .struct s => match types.find? (fun t => t.name == s) with
      | none => none
      | some t => match allSome (t.fromJ.map (decMember (dec types tm dump n) t.fields j)) with
        | none => none
        | some ps => (arrange t.fields ps.flatten).map V.struct
    | _, _ => none

end Verif.Wire
