import Verif.DeviceModel.Model
/-
What users rely on for variables of the device model, said without the functions of the model: what the
texts of values mean, which values a variable admits, and what is disclosed.
-/
set_option linter.constructorNameAsVariable false

namespace Verif.DM

/-- The numbers digits stand for: the first digit counts ten to the number of digits after it. -/
def decimalNumber : Str → Nat
  | [] => 0
  | d :: ds => (d.toNat - 48) * 10 ^ ds.length + decimalNumber ds

/-- A run of digits. -/
def Digits (ds : Str) : Prop := ∀ c ∈ ds, '0' ≤ c ∧ c ≤ '9'

/-- The text `v` is an integer literal (an optional sign and at least one digit) for the number `n`. -/
def IsIntegerText (v : Str) (n : Int) : Prop :=
  ∃ ds, ds ≠ [] ∧ Digits ds ∧
    ((v = ds ∧ n = decimalNumber ds) ∨ (v = '+' :: ds ∧ n = decimalNumber ds) ∨
     (v = '-' :: ds ∧ n = -(decimalNumber ds : Int)))

/-- The text `v` without sign is a decimal number `x`: digits, optionally a point and more digits, at
least one digit altogether. -/
def IsUnsignedDecimalText (v : Str) (x : Rat) : Prop :=
  (Digits v ∧ v ≠ [] ∧ x = decimalNumber v) ∨
  (∃ i f, v = i ++ '.' :: f ∧ Digits i ∧ Digits f ∧ (i ≠ [] ∨ f ≠ []) ∧
    x = decimalNumber i + decimalNumber f / ((10 ^ f.length : Nat) : Rat))

/-- The text `v` is a decimal number `x` with optional sign. -/
def IsDecimalText (v : Str) (x : Rat) : Prop :=
  IsUnsignedDecimalText v x ∨ (∃ w, v = '+' :: w ∧ IsUnsignedDecimalText w x) ∨
  (∃ w y, v = '-' :: w ∧ IsUnsignedDecimalText w y ∧ x = -y)

/-- `x` is a piece of the comma separated text `s`: between the beginning or a comma and a comma or the
end.  Nothing after a last comma, and nothing at all, is no piece. -/
def Piece (x s : Str) : Prop :=
  ∃ pre post, s = pre ++ x ++ post ∧ ',' ∉ x ∧ (pre = [] ∨ ∃ p, pre = p ++ [',']) ∧
    ((post = [] ∧ x ≠ []) ∨ ∃ q, post = ',' :: q)

/-- Two digits for a number between `lo` and `hi`. -/
def TwoDigits (lo hi : Nat) (v : Str) : Prop :=
  v.length = 2 ∧ Digits v ∧ lo ≤ decimalNumber v ∧ decimalNumber v ≤ hi

/-- A time stamp: `YYYY-MM-DDThh:mm:ss`, optionally a point and at most three digits, then `Z` or an
offset `+hh:mm` in which the colon may be missing. -/
def IsTimestamp (v : Str) : Prop :=
  ∃ y m d h n s frac zone, v = y ++ '-' :: m ++ '-' :: d ++ 'T' :: h ++ ':' :: n ++ ':' :: s ++ frac ++ zone ∧
    y.length = 4 ∧ Digits y ∧ TwoDigits 1 12 m ∧ TwoDigits 1 31 d ∧ TwoDigits 0 23 h ∧ TwoDigits 0 59 n ∧
    TwoDigits 0 59 s ∧
    (frac = [] ∨ ∃ f, frac = '.' :: f ∧ Digits f ∧ f.length ≤ 3) ∧
    (zone = ['Z'] ∨ ∃ c hh mm, (c = '+' ∨ c = '-') ∧ hh.length = 2 ∧ Digits hh ∧ mm.length = 2 ∧ Digits mm ∧
      (zone = c :: hh ++ mm ∨ zone = c :: hh ++ ':' :: mm))

/-- `x` is within the limits of the variable. -/
def InLimits (ch : Chars) (x : Rat) : Prop :=
  (∀ m, ch.minLimit = some m → m ≤ x) ∧ (∀ m, ch.maxLimit = some m → x ≤ m)

/-- The variable with these characteristics admits the value `v`.  `zero` says that 0 is admitted
whatever the limits are, as OCPP says for three intervals. -/
def Admits (ch : Chars) (zero : Prop) (v : Str) : Prop :=
  match ch.dataType with
  | .string => InLimits ch (v.length : Rat)
  | .integer => ∃ n : Int, IsIntegerText v n ∧ ((zero ∧ n = 0) ∨ InLimits ch n)
  | .decimal => ∃ x, IsDecimalText v x ∧ ((zero ∧ x = 0) ∨ InLimits ch x)
  | .dateTime => IsTimestamp v
  | .boolean => v = "true".toList ∨ v = "false".toList
  | .optionList => ∀ l, ch.valuesList = some l → Piece v l
  | .sequenceList | .memberList => ∀ l, ch.valuesList = some l → ∀ x, Piece x v → Piece x l

/-- The three intervals that may be 0 whatever their limits say. -/
def ZeroAllowed (c : Comp) (v : Vbl) : Prop :=
  (c = ⟨"AlignedDataCtrlr".toList, none, none⟩ ∧ v = ⟨"Interval".toList, none⟩) ∨
  (c = ⟨"SampledDataCtrlr".toList, none, none⟩ ∧
    (v = ⟨"TxUpdatedInterval".toList, none⟩ ∨ v = ⟨"TxEndedInterval".toList, none⟩))

/-- The limits of strings and integers are whole numbers that are not negative (the implementation rounds
them up and takes negative ones for 0). -/
def WholeLimits (ch : Chars) : Prop :=
  (∀ m, ch.minLimit = some m → ∃ k : Nat, m = k) ∧ (∀ m, ch.maxLimit = some m → ∃ k : Nat, m = k)

/-- The cases in which the implementation judges values as OCPP wants: numbers it can represent, integers
that are not negative, whole limits. -/
def Judged (ch : Chars) (v : Str) : Prop :=
  match ch.dataType with
  | .string => WholeLimits ch
  | .integer => WholeLimits ch ∧ ∀ n, IsIntegerText v n → 0 ≤ n ∧ n < 2 ^ 31
  | .decimal => ∀ x, IsDecimalText v x → x < ((2 ^ 128 - 2 ^ 103 : Nat) : Rat) ∧ -x < ((2 ^ 128 - 2 ^ 103 : Nat) : Rat)
  | _ => True

/-- The attribute of kind `a` of the variable `v` of component `c`. -/
def IsAttr (dm : DM) (c : Comp) (v : Vbl) (a : AttrType) (x : Attr) : Prop :=
  ∃ e ∈ dm, e.comp = c ∧ e.var = v ∧ x ∈ e.attrs ∧ x.type = a

/-- A well formed device model: each variable is listed once and has at most one attribute of each kind. -/
structure WellFormed (dm : DM) : Prop where
  vars : dm.Pairwise (fun e f => ¬ (e.comp = f.comp ∧ e.var = f.var))
  attrs : ∀ e ∈ dm, e.attrs.Pairwise (fun x y => x.type ≠ y.type)

/-- The report discloses the value of a WriteOnly attribute. -/
def Discloses (r : List Report) : Prop :=
  ∃ x ∈ r, ∃ a ∈ x.attrs, a.mutability = some .writeOnly ∧ a.value ≠ none

/-- The report contains the attribute `x` of the variable. -/
def Reported (r : List Report) (c : Comp) (v : Vbl) (x : Attr) : Prop :=
  ∃ p ∈ r, p.comp = c ∧ p.var = v ∧ x ∈ p.attrs

/-- An attribute as it may be reported: a WriteOnly one without its value. -/
def Hidden (y x : Attr) : Prop :=
  (y.mutability = some .writeOnly → x = { y with value := none }) ∧ (y.mutability ≠ some .writeOnly → x = y)

/-- Texts that are equal up to upper and lower case. -/
def SameIgnoringCase (a b : Str) : Prop := a.map Char.toLower = b.map Char.toLower

/-- A request for component `x.comp` and variable `x.var` asks for variable `v` of component `c`: for all
variables of the component if it names none, for all instances of a variable if it names no instance, for
the variable in the component of every EVSE if it names no EVSE. -/
def AsksFor (x : CompVar) (c : Comp) (v : Vbl) : Prop :=
  (x.comp = c ∧ (x.var = none ∨ x.var = some v ∨
    ∃ w, x.var = some w ∧ w.inst = none ∧ SameIgnoringCase w.name v.name)) ∨
  (x.comp.evse = none ∧ SameIgnoringCase x.comp.name c.name ∧ x.comp.inst = c.inst ∧ x.var = some v)

/-- The variable a criterion looks at. -/
def criterionVariable : Criterion → Vbl
  | .active => ⟨"Active".toList, none⟩
  | .available => ⟨"Available".toList, none⟩
  | .enabled => ⟨"Enabled".toList, none⟩
  | .problem => ⟨"Problem".toList, none⟩

/-- Whether an attribute belongs to the summary: the availability of the station, its EVSEs and connectors,
and conditions that are true. -/
def OfSummary (c : Comp) (v : Vbl) (x : Attr) : Prop :=
  (v = ⟨"AvailabilityState".toList, none⟩ ∧
    (c = ⟨"ChargingStation".toList, none, none⟩ ∨ SameIgnoringCase c.name "EVSE".toList ∨
     SameIgnoringCase c.name "Connector".toList)) ∨
  ((v = ⟨"Fallback".toList, none⟩ ∨ v = ⟨"Overload".toList, none⟩ ∨ v = ⟨"Problem".toList, none⟩ ∨
    v = ⟨"Tripped".toList, none⟩) ∧ x.value = some "true".toList)

/-- The component satisfies a criterion: its variable of that name reads true, or, except for Problem, it
cannot be read. -/
def Satisfies (dm : DM) (c : Comp) (k : Criterion) : Prop :=
  (∃ x val, IsAttr dm c (criterionVariable k) .actual x ∧ x.value = some val ∧ x.mutability ≠ some .writeOnly ∧
    SameIgnoringCase val "true".toList) ∨
  (k ≠ .problem ∧ ¬ ∃ x, IsAttr dm c (criterionVariable k) .actual x ∧ x.value ≠ none ∧
    x.mutability ≠ some .writeOnly)

/-- `ds'` is `ds` with nothing but the value of one attribute changed. -/
def OnlyChanged (dm dm' : DM) (c : Comp) (v : Vbl) (a : AttrType) (val : Str) : Prop :=
  (∀ x, IsAttr dm' c v a x ↔ ∃ y, IsAttr dm c v a y ∧ x = { y with value := some val }) ∧
  (∀ c' v' a' x, ¬ (c' = c ∧ v' = v ∧ a' = a) → (IsAttr dm' c' v' a' x ↔ IsAttr dm c' v' a' x)) ∧
  (∀ c' v' ch, (∃ e ∈ dm', e.comp = c' ∧ e.var = v' ∧ e.chars = ch) ↔
    (∃ e ∈ dm, e.comp = c' ∧ e.var = v' ∧ e.chars = ch))

end Verif.DM
