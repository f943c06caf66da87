/-
Model of `String<L>` and `CiString<L>` (include/ocpp/common/string.hpp, include/ocpp/common/cistring.hpp) and of `iequals`
(lib/ocpp/common/utils.cpp l.15-17).

Texts are lists of bytes, as in `std::string`. The locale is the classic one: `toupper` changes a-z only.
-/
namespace Verif.Str

abbrev Bytes := List UInt8

/-- `StringTooLarge`, string.hpp l.18-21. -/
inductive TooLarge
  | throw
  | truncate
  deriving DecidableEq, Repr

/-- `String<L>::set`, string.hpp l.46-66; `none`: StringConversionException, the object is unchanged. `is_valid` is that of `String`, which accepts
everything (l.69-72): it is not virtual, so that of `CiString` (cistring.hpp l.37-46) is never called. -/
def set (L : Nat) (d : Bytes) (t : TooLarge) : Option Bytes :=
  if d.length > L then (match t with | .throw => none | .truncate => some (d.take L)) else some d

/-- What the callers can do with an object: `set` (also behind the constructors, string.hpp l.30-37, and `from_json`, cistring.hpp
l.88-90) and assignment of another object of that type (cistring.hpp l.33). -/
inductive Op
  | set (d : Bytes) (t : TooLarge)
  | assign (d : Bytes) (t : TooLarge)
  deriving DecidableEq, Repr

/-- The contents of an object after an operation; after an exception they are the previous ones. -/
def step (L : Nat) (s : Bytes) : Op → Bytes
  | .set d t => (set L d t).getD s
  | .assign d t => (set L d t).getD s

/-- An object that is empty at first (string.hpp l.40), after operations. -/
def run (L : Nat) (ops : List Op) : Bytes := ops.foldl (step L) []

/-- `std::toupper` of the classic locale. -/
def up (b : UInt8) : UInt8 := if 0x61 ≤ b ∧ b ≤ 0x7a then b - 0x20 else b

/-- `boost::algorithm::iequals` (called from utils.cpp l.15-17): both ranges are walked together and characters compared with `toupper`. -/
def iequals : Bytes → Bytes → Bool
  | [], [] => true
  | a :: l, b :: r => up a == up b && iequals l r
  | _, _ => false

/-- `operator==`, cistring.hpp l.54-61. -/
def eq (l r : Bytes) : Bool := iequals l r

/-- `operator!=`, cistring.hpp l.64-71: of the `std::string`s. -/
def ne (l r : Bytes) : Bool := !(l == r)

/-- `operator<`, cistring.hpp l.74-76: of the `std::string`s, which compare bytes as unsigned numbers. -/
def lt : Bytes → Bytes → Bool
  | _, [] => false
  | [], _ :: _ => true
  | a :: l, b :: r => if a < b then true else if b < a then false else lt l r

/-- `std::map::find` with keys that are CiStrings: the entry none of whose key and the wanted one is less than the other. -/
def find (m : List (Bytes × Nat)) (k : Bytes) : Option Nat :=
  (m.find? (fun p => !(lt p.1 k) && !(lt k p.1))).map (·.2)

end Verif.Str
