import Verif.Wire.TypeModel

/-!
Times as texts: `DateTimeImpl::to_rfc3339` and `from_rfc3339`, lib/ocpp/common/types.cpp l.31-51.  The formats are interpreted by the date library,
which is not part of the repository; modelled is its documented behaviour for years of four digits, without leap seconds.
-/

namespace Verif.Wire

/-- Days since 1970-01-01 of a date in the Gregorian calendar; years begin in March in between. -/
def daysOfDate (y m d : Int) : Int :=
  let y' := if m ≤ 2 then y - 1 else y
  let yoe := y' % 400
  let mp := if m > 2 then m - 3 else m + 9
  y' / 400 * 146097 + (365 * yoe + yoe / 4 - yoe / 100) + ((153 * mp + 2) / 5 + d - 1) - 719468

/-- The date (year, month, day) of a number of days since 1970-01-01: centuries, groups of four years, years, months. -/
def dateOfDays (z : Int) : Int × Int × Int :=
  let z' := z + 719468
  let doe := z' % 146097
  let c := min (doe / 36524) 3
  let r := doe - 36524 * c
  let q := r / 1461
  let s := r - 1461 * q
  let a := min (s / 365) 3
  let doy := s - 365 * a
  let mp := (5 * doy + 2) / 153
  let m := if mp < 10 then mp + 3 else mp - 9
  let y := z' / 146097 * 400 + 100 * c + 4 * q + a
  (if m ≤ 2 then y + 1 else y, m, doy - (153 * mp + 2) / 5 + 1)

/-- The digit of a number below ten. -/
def digit (n : Nat) : Char := Char.ofNat (48 + n)

/-- The last `k` digits of a number. -/
def digits : Nat → Nat → List Char
  | 0, _ => []
  | k + 1, n => digits k (n / 10) ++ [digit (n % 10)]

/-- Date and time of a time in milliseconds, `%FT%T`: 2024-02-29T13:05:00.250. -/
def formatUtc (t : Int) : List Char :=
  let (y, m, d) := dateOfDays (t / 86400000)
  let ms := (t % 86400000).toNat
  digits 4 y.toNat ++ ['-'] ++ digits 2 m.toNat ++ ['-'] ++ digits 2 d.toNat ++ ['T'] ++ digits 2 (ms / 3600000) ++ [':'] ++
    digits 2 (ms / 60000 % 60) ++ [':'] ++ digits 2 (ms / 1000 % 60) ++ ['.'] ++ digits 3 (ms % 1000)

/-- `to_rfc3339`, lib/ocpp/common/types.cpp l.31-33: `%FT%TZ`. -/
def formatTime (t : Int) : List Char := formatUtc t ++ ['Z']

/-- A digit. -/
def readDigit (c : Char) : Option Nat := if 48 ≤ c.toNat ∧ c.toNat ≤ 57 then some (c.toNat - 48) else none

/-- `k` digits after the number `n`, and the rest of the text. -/
def readDigits : Nat → Nat → List Char → Option (Nat × List Char)
  | 0, n, l => some (n, l)
  | _ + 1, _, [] => none
  | k + 1, n, c :: l => match readDigit c with
    | none => none
    | some x => readDigits k (10 * n + x) l

/-- A character that must follow. -/
def expect (c : Char) : List Char → Option (List Char)
  | [] => none
  | x :: l => if x = c then some l else none

/-- All digits that follow, as a fraction: value and rest; with `scale` the value of a one at the next place in nanoseconds. -/
def readFraction (scale : Nat) : List Char → Nat × List Char
  | [] => (0, [])
  | c :: l => match readDigit c with
    | none => (0, c :: l)
    | some x => let (v, r) := readFraction (scale / 10) l; (x * scale + v, r)

/-- The time zone: `%Ez` with sign, hours, colon and minutes; otherwise the attempts with `Z` and with nothing take the time as UTC, whatever follows.
In milliseconds to subtract.  (Offsets without minutes or colon are left out.) -/
def readZone (l : List Char) : Int :=
  let off (l : List Char) : Option Int :=
    (readDigits 2 0 l).bind (fun (h, l) => (expect ':' l).bind (fun l => (readDigits 2 0 l).map (fun (m, _) => ((h * 3600000 + m * 60000 : Nat) : Int))))
  match l with
  | '+' :: r => (off r).getD 0
  | '-' :: r => -((off r).getD 0)
  | _ => 0

/-- The number of days of a month. -/
def monthDays (y m : Nat) : Nat :=
  if m = 2 then (if y % 4 = 0 ∧ (y % 100 ≠ 0 ∨ y % 400 = 0) then 29 else 28)
  else if m = 4 ∨ m = 6 ∨ m = 9 ∨ m = 11 then 30 else 31

/-- `from_rfc3339`, lib/ocpp/common/types.cpp l.35-51: date, `T`, time, optional fraction, zone; in milliseconds (the code keeps nanoseconds).  `none` is
`TimePointParseException`. -/
def parseTime (l : List Char) : Option Int :=
  (readDigits 4 0 l).bind fun (y, l) => (expect '-' l).bind fun l =>
  (readDigits 2 0 l).bind fun (mo, l) => (expect '-' l).bind fun l =>
  (readDigits 2 0 l).bind fun (d, l) => (expect 'T' l).bind fun l =>
  (readDigits 2 0 l).bind fun (h, l) => (expect ':' l).bind fun l =>
  (readDigits 2 0 l).bind fun (mi, l) => (expect ':' l).bind fun l =>
  (readDigits 2 0 l).bind fun (s, l) =>
  if 1 ≤ mo ∧ mo ≤ 12 ∧ 1 ≤ d ∧ d ≤ monthDays y mo ∧ h < 24 ∧ mi < 60 ∧ s < 60 then
    let (ns, l) := match l with
      | '.' :: r => readFraction 100000000 r
      | _ => (0, l)
    some (daysOfDate y mo d * 86400000 + (h * 3600000 + mi * 60000 + s * 1000 + ns / 1000000 : Nat) - readZone l)
  else none

/-- The conversions of `DateTime`. -/
def rfc3339 : Times :=
  { write := fun t => String.ofList (formatTime t), read := fun s => parseTime s.toList }

end Verif.Wire
