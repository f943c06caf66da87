import Verif.Price.Model

/-!
# What the CSMS may expect of the triggers of a cost message
-/

namespace Verif.Price

/-- What is sent at measurements. -/
def atReadings : List (Ev × List Reading) → List Reading
  | [] => []
  | (.measured _, o) :: l => o ++ atReadings l
  | _ :: l => atReadings l

/-- What is sent when the status changes. -/
def atStatus : List (Ev × List Reading) → List Reading
  | [] => []
  | (.status _, o) :: l => o ++ atStatus l
  | _ :: l => atStatus l

/-- What is sent because of the clock. -/
def atClock : List (Ev × List Reading) → List Reading
  | [] => []
  | (.clock _, o) :: l => o ++ atClock l
  | _ :: l => atClock l

/-- The measurements of a history. -/
def readings : List Ev → List Reading
  | [] => []
  | .measured r :: es => r :: readings es
  | _ :: es => readings es

/-- The register of a measurement has reached an energy. -/
def reached (threshold : Int) (r : Reading) : Bool :=
  match r.energy with
  | none => false
  | some e => decide (threshold ≤ e)

/-- Neither a cost message nor the end of the transaction. -/
def Quiet (es : List Ev) : Prop := ∀ e ∈ es, (∀ now t, e ≠ .cost now t) ∧ e ≠ .stop

/-- The powers that are sent, one after another, lie on different sides of the threshold, the later one at least 5 % away
from it. -/
def Alternate (threshold : Int) : List Int → Prop
  | a :: b :: l =>
    ((a < threshold ∧ 21 * threshold ≤ 20 * b) ∨ (threshold < a ∧ 20 * b ≤ 19 * threshold)) ∧
      Alternate threshold (b :: l)
  | _ => True

/-- The last power that the CSMS was told in this transaction. -/
def told (before : Option Int) : List (Ev × List Reading) → Option Int
  | [] => before
  | (.stop, _) :: l => told none l
  | (_, o) :: l => told ((o.filterMap Reading.power).getLast?.or before) l

/-- The powers that were measured. -/
def powers (es : List Ev) : List Int := (readings es).filterMap Reading.power

/-- The energy of the last measurement is sent at the first time the clock shows `t` or more, if there is one. -/
def atTime (t : Int) (last : Option Reading) : List Ev → List Reading
  | [] => []
  | .measured r :: es => atTime t (some r) es
  | .clock now :: es =>
    if t ≤ now then (last.bind Reading.energy).toList.map (fun e => ⟨some e, none⟩) else atTime t last es
  | _ :: es => atTime t last es

/-- The energy of the last measurement is sent whenever the status becomes one of `l`. -/
def atStatuses (l : List Status) (last : Option Reading) : List Ev → List Reading
  | [] => []
  | .measured r :: es => atStatuses l (some r) es
  | .status s :: es =>
    (if s ∈ l then (last.bind Reading.energy).toList.map (fun e => ⟨some e, none⟩) else []) ++ atStatuses l last es
  | _ :: es => atStatuses l last es

/-- Every report of a status tells another status than the one before. -/
def Changing (now : Option Status) : List Ev → Prop
  | [] => True
  | .status s :: es => now ≠ some s ∧ Changing (some s) es
  | _ :: es => Changing now es

/-- The last status that was reported. -/
def statusOf (now : Option Status) : List Ev → Option Status
  | [] => now
  | .status s :: es => statusOf (some s) es
  | _ :: es => statusOf now es

end Verif.Price
