/-!
# Time-walking functions shared by the 1.6 and 2.x composite schedule code

`lib/ocpp/v16/profile.cpp` and `lib/ocpp/v2/profile.cpp` contain the same two loops over different record types.
They are modelled once, over an arbitrary type `α` of period contents.

Times are integers (seconds). All `DateTime`s entering these functions have been floored to seconds by the code.
-/

namespace Verif.SC

/-- `std::numeric_limits<std::int32_t>::max()` -/
def intMax : Int := 2147483647

/-- `clamp_to<std::int32_t>` (include/ocpp/common/utils.hpp l.47-49). The code clamps only from above; the cast of a value below
`-2^31` is not modelled (the value is kept). -/
def clampInt (x : Int) : Int := if x ≤ intMax then x else intMax

/-- One element of an `IntermediateProfile`: the offset `startPeriod` and everything else
(v16/profile.hpp l.22-30, v2/profile.hpp l.19-29). -/
structure Step (α : Type) where
  start : Int
  val : α
deriving DecidableEq, Repr

/-- `period_entry_t` (v16/profile.hpp l.34-47, v2/profile.hpp l.40-63): interval `[start, stop)`, stack level, contents. -/
structure Entry (α : Type) where
  start : Int
  stop : Int
  stack : Int
  val : α
deriving DecidableEq, Repr

variable {α : Type}

/-! ## `generate_profile_from_periods` (v16/profile.cpp l.404-481, v2/profile.cpp l.382-484) -/

/-- The variables of the inner `for` loop. -/
structure Scan (α : Type) where
  earliest : Int
  next : Int
  chosen : Option (Entry α)

/-- Inner `for` loop (v16 l.436-448, v2 l.413-425). -/
def scan (current : Int) : Scan α → List (Entry α) → Scan α
  | s, [] => s
  | s, e :: rest =>
    if e.start ≤ s.earliest ∧ e.stop > current then
      let s' : Scan α := ⟨e.start, s.earliest, some e⟩
      if e.start ≤ current then s' else scan current s' rest
    else scan current s rest

/-- The `while` loop (v16 l.430-478, v2 l.407-481) over the periods sorted by stack level. `fuel` bounds the number of iterations;
each iteration advances `current`, so `stop - now` suffices (`genLoop_at`). `gap` is the content of a period without limit. In the
`none` case the code would dereference a null pointer; `scan_spec` shows that it does not occur. -/
def genLoop (sorted : List (Entry α)) (now stop : Int) (gap : α) : Nat → Int → List (Step α)
  | 0, _ => []
  | fuel + 1, current =>
    if current < stop then
      let s := scan current ⟨stop, stop, none⟩ sorted
      if s.earliest > current then
        ⟨clampInt (current - now), gap⟩ :: genLoop sorted now stop gap fuel s.earliest
      else match s.chosen with
        | none => []
        | some c =>
          ⟨clampInt (current - now), c.val⟩ ::
            genLoop sorted now stop gap fuel (if c.stop < s.next then c.stop else s.next)
    else []

/-- A possible behaviour of `std::sort` with the comparison "higher stack level first": some permutation that is sorted.
`std::sort` is not stable, so nothing is said about equal stack levels. -/
structure SortsByStack (sort : List (Entry α) → List (Entry α)) : Prop where
  perm : ∀ l, (sort l).Perm l
  sorted : ∀ l, (sort l).Pairwise (fun a b => b.stack ≤ a.stack)

/-- `generate_profile_from_periods`. -/
def generate (sort : List (Entry α) → List (Entry α)) (periods : List (Entry α)) (now stop : Int) (gap : α) : List (Step α) :=
  if periods = [] then [⟨0, gap⟩]
  else genLoop (sort periods) now stop gap (stop - now).toNat now

/-! ## `combine_list_of_profiles` (v16/profile.cpp l.498-566, v2/profile.cpp l.501-565) -/

/-- The loop computing `next_lowest_period` (v16 l.540-546). An iterator pair is the list of the elements not yet passed. -/
def nextLowest (current : Int) (its : List (List (Step α))) : Int :=
  its.foldl (fun acc it => match it with
    | _ :: n :: _ => if n.start > current ∧ n.start < acc then n.start else acc
    | _ => acc) intMax

/-- Moving the iterators (v16 l.554-559). -/
def advance (next : Int) : List (Step α) → List (Step α)
  | a :: n :: rest => if n.start = next then n :: rest else a :: n :: rest
  | l => l

/-- Current element of an iterator pair. -/
def heads (its : List (List (Step α))) : List α := its.filterMap fun it => it.head?.map Step.val

/-- The `while` loop (v16 l.516-561). `last` is the content of `combined.back()`. Iterators never reach the end
(an iterator is advanced only if there is a next element), so the loop condition is always true when there is an iterator.
`fuel` bounds the number of iterations. -/
def combineLoop [DecidableEq α] (f : List α → α) : Nat → Int → List (List (Step α)) → Option α → List (Step α)
  | 0, _, _, _ => []
  | fuel + 1, current, its, last =>
    let v := f (heads its)
    let rest := fun last' =>
      let nx := nextLowest current its
      if nx = intMax then [] else combineLoop f fuel nx (its.map (advance nx)) last'
    if last = some v then rest last else ⟨current, v⟩ :: rest (some v)

/-- `combine_list_of_profiles`. The comparison with `combined.back()` covers all fields (in v2 all except `phaseToUse`, which
`generate_profile_from_periods` never sets). -/
def combine [DecidableEq α] (gap : α) (f : List α → α) (profiles : List (List (Step α))) : List (Step α) :=
  if profiles = [] then [⟨0, gap⟩]
  else
    let its := profiles.filter (fun p => !p.isEmpty)
    if its = [] then [⟨0, gap⟩]
    else combineLoop f ((its.map List.length).sum + 1) 0 its none

/-! ## Specification vocabulary -/

/-- What a list of periods says about offset `t`: the content of the last period that has started. -/
def valueAt (l : List (Step α)) (t : Int) : Option α :=
  ((l.filter (fun s => decide (s.start ≤ t))).getLast?).map Step.val

/-- Well-formed list of periods for a window of length `dur`: first offset 0, offsets strictly increasing, all inside the window. -/
structure WellFormed (l : List (Step α)) (dur : Int) : Prop where
  first : ∃ v rest, l = ⟨0, v⟩ :: rest
  increasing : l.Pairwise (fun a b => a.start < b.start)
  inside : ∀ s ∈ l, 0 ≤ s.start ∧ s.start < dur

/-- A period entry is in force at instant `t`. -/
def Entry.activeAt (e : Entry α) (t : Int) : Prop := e.start ≤ t ∧ t < e.stop

instance (e : Entry α) (t : Int) : Decidable (e.activeAt t) := inferInstanceAs (Decidable (_ ∧ _))

end Verif.SC
