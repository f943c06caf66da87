import Verif.Log.Model
/-! What the theorems about the rotation of logs speak about. -/

namespace Verif.Log

open Verif.Conf16 (Text bytes)

/-- The name of the `i`-th file, counted from the newest: the log itself, `.0`, `.1`, … -/
def suffix : Nat → Text
  | 0 => []
  | i + 1 => '.' :: (toString i).toList

/-- The files of the log are those with the numbers of the list, with these entries; the list is in the order of the numbers, so newest first. -/
def Holds (d : Dir) (fs : List (Nat × List Item)) : Prop :=
  d.Perm (fs.map (fun f => (suffix f.1, f.2))) ∧ fs.Pairwise (fun a b => a.1 < b.1)

/-- The entries of a file. -/
def logged (c : List Item) : List Text := c.filterMap (fun i => match i with
  | .entry t => some t
  | .tags _ => none)

/-- All entries, the oldest first. -/
def chronicle (fs : List (Nat × List Item)) : List Text := (fs.reverse.map (fun f => logged f.2)).flatten

/-- The files with the contents `cs`, newest first, without gaps in the numbers. -/
def numbered (cs : List (List Item)) : List (Nat × List Item) := (List.range cs.length).zip cs

/-- What a history writes. -/
def entries : List Op → List Text
  | [] => []
  | .write _ e :: os => e :: entries os
  | .restart _ :: os => entries os
  | .close :: os => entries os

end Verif.Log
