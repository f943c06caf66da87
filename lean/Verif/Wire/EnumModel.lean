/-!
Conversions of enumerations (lib/ocpp/v2/ocpp_enums.cpp, lib/ocpp/v16/ocpp_enums.cpp and others): each is a `switch` over the values that
returns a text, and a chain of comparisons with texts that returns a value.
-/

namespace Verif.Wire

/-- An enumeration: the values declared, the cases of the conversion to a text, the comparisons of the conversion from a text. -/
structure EnumTable where
  name : String
  decl : List String
  toS : List (String × String)
  fromS : List (String × String)
  deriving DecidableEq, Repr

/-- The first entry of a key. -/
def lookup (l : List (String × String)) (k : String) : Option String :=
  match l with
  | [] => none
  | (a, b) :: r => if a = k then some b else lookup r k

/-- `*_to_string` (for instance v2/ocpp_enums.cpp l.16-25): the case of the value; `none` is `EnumToStringException`. -/
def EnumTable.write (t : EnumTable) (v : String) : Option String := lookup t.toS v

/-- `string_to_*` (for instance v2/ocpp_enums.cpp l.27-36): the first comparison that holds; `none` is `StringToEnumException`. -/
def EnumTable.read (t : EnumTable) (s : String) : Option String := lookup t.fromS s

end Verif.Wire
