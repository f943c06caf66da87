import Mathlib.Algebra.Order.Ring.Rat
import Mathlib.Algebra.Order.Field.Basic
import Mathlib.Tactic.Linarith
import Mathlib.Tactic.Positivity
import Verif.SmartCharging.V16Entries

/-! Merging and converting the limits of one instant. -/

set_option linter.unusedSimpArgs false

namespace Verif.SC16
open Verif.SC

/-! ## Minimum of a list with sentinels -/

theorem minFold_spec (l : List Rat) : ∀ acc : Rat, acc ≤ fltMax →
    (∀ x ∈ l, x = noLimit ∨ (0 ≤ x ∧ x < fltMax)) →
    let r := l.foldl (fun a x => if 0 ≤ x ∧ x < a then x else a) acc
    r ≤ acc ∧ (r = acc ∨ (r ∈ l ∧ 0 ≤ r ∧ r < fltMax)) ∧ ∀ x ∈ l, 0 ≤ x → r ≤ x := by
  induction l with
  | nil => intro acc _ _; simp
  | cons y l ih =>
    intro acc hacc hl
    have hl' : ∀ x ∈ l, x = noLimit ∨ (0 ≤ x ∧ x < fltMax) := fun x hx => hl x (List.mem_cons_of_mem _ hx)
    simp only [List.foldl_cons]
    by_cases hc : 0 ≤ y ∧ y < acc
    · rw [if_pos hc]
      obtain ⟨h1, h2, h3⟩ := ih y (by linarith [hc.2]) hl'
      refine ⟨by linarith [hc.2], ?_, ?_⟩
      · rcases h2 with h2 | ⟨a, b, c⟩
        · right; rw [h2]; exact ⟨by simp, hc.1, by linarith [hc.2]⟩
        · right; exact ⟨List.mem_cons_of_mem _ a, b, c⟩
      · intro x hx h0
        rcases List.mem_cons.1 hx with rfl | hx
        · exact h1
        · exact h3 x hx h0
    · rw [if_neg hc]
      obtain ⟨h1, h2, h3⟩ := ih acc hacc hl'
      refine ⟨h1, ?_, ?_⟩
      · rcases h2 with h2 | ⟨a, b, c⟩
        · exact Or.inl h2
        · right; exact ⟨List.mem_cons_of_mem _ a, b, c⟩
      · intro x hx h0
        rcases List.mem_cons.1 hx with rfl | hx
        · have : acc ≤ x := by
            by_contra hlt
            exact hc ⟨h0, lt_of_not_ge hlt⟩
          linarith
        · exact h3 x hx h0

theorem pickLow_fold (l : List (Option Int)) : ∀ acc : Option Int,
    l.foldl (pickPhases (fun b a => decide (b < a))) acc = lowestPhases (acc :: l) := by
  induction l with
  | nil => intro acc; cases acc <;> rfl
  | cons x l ih =>
    intro acc
    rw [List.foldl_cons, ih]
    unfold lowestPhases pickPhases
    cases acc with
    | none => rfl
    | some a =>
      cases x with
      | none => rfl
      | some b =>
        simp only [decide_eq_true_eq]
        split
        · rename_i hlt
          simp only [List.filterMap_cons, id, List.min?_cons', List.foldl_cons]
          rw [show min a b = b by omega]
        · rename_i hlt
          simp only [List.filterMap_cons, id, List.min?_cons', List.foldl_cons]
          rw [show min a b = a by omega]

theorem pickHigh_fold (l : List (Option Int)) : ∀ acc : Option Int,
    l.foldl (pickPhases (fun b a => decide (b > a))) acc = highestPhases (acc :: l) := by
  induction l with
  | nil => intro acc; cases acc <;> rfl
  | cons x l ih =>
    intro acc
    rw [List.foldl_cons, ih]
    unfold highestPhases pickPhases
    cases acc with
    | none => rfl
    | some a =>
      cases x with
      | none => rfl
      | some b =>
        simp only [decide_eq_true_eq]
        split
        · rename_i hlt
          simp only [List.filterMap_cons, id, List.max?_cons', List.foldl_cons]
          rw [show max a b = b by omega]
        · rename_i hlt
          simp only [List.filterMap_cons, id, List.max?_cons', List.foldl_cons]
          rw [show max a b = a by omega]

theorem lowest_fold (xs : List IP) : ∀ acc : IP,
    (xs.foldl lowestStep acc).cur = (xs.map IP.cur).foldl (fun a x => if 0 ≤ x ∧ x < a then x else a) acc.cur ∧
    (xs.foldl lowestStep acc).pow = (xs.map IP.pow).foldl (fun a x => if 0 ≤ x ∧ x < a then x else a) acc.pow ∧
    (xs.foldl lowestStep acc).phases = (xs.map IP.phases).foldl (pickPhases (fun b a => decide (b < a))) acc.phases := by
  induction xs with
  | nil => intro acc; exact ⟨rfl, rfl, rfl⟩
  | cons x xs ih =>
    intro acc
    obtain ⟨h1, h2, h3⟩ := ih (lowestStep acc x)
    simp only [List.foldl_cons, List.map_cons]
    rw [h1, h2, h3]
    unfold lowestStep
    refine ⟨?_, ?_, ?_⟩ <;> simp only <;> (repeat' split) <;> first | rfl | simp_all

/-- What an intermediate period says in each unit: `noLimit`, or a limit. -/
structure IP.Ok (x : IP) : Prop where
  cur : x.cur = noLimit ∨ (0 ≤ x.cur ∧ x.cur < fltMax)
  pow : x.pow = noLimit ∨ (0 ≤ x.pow ∧ x.pow < fltMax)

/-- The limits in an intermediate period. -/
def limits (x : IP) : List Limit :=
  (if 0 ≤ x.cur then [⟨.A, x.cur, x.phases⟩] else []) ++ (if 0 ≤ x.pow then [⟨.W, x.pow, x.phases⟩] else [])

theorem noLimit_neg : ¬ (0 : Rat) ≤ noLimit := by unfold noLimit; norm_num

theorem min_cases (l : List Rat) (hl : ∀ x ∈ l, x = noLimit ∨ (0 ≤ x ∧ x < fltMax)) :
    let r := l.foldl (fun a x => if 0 ≤ x ∧ x < a then x else a) fltMax
    let r' := if r = fltMax then noLimit else r
    (r' = noLimit ∧ ∀ x ∈ l, ¬ 0 ≤ x) ∨ (r' ≠ noLimit ∧ r' ∈ l ∧ 0 ≤ r' ∧ r' < fltMax ∧ ∀ x ∈ l, 0 ≤ x → r' ≤ x) := by
  obtain ⟨h1, h2, h3⟩ := minFold_spec l fltMax (le_refl _) hl
  simp only
  split
  · rename_i he
    left
    refine ⟨rfl, ?_⟩
    intro x hx h0
    have := h3 x hx h0
    rw [he] at this
    rcases hl x hx with h | ⟨_, h⟩
    · rw [h] at h0; exact noLimit_neg h0
    · linarith
  · rename_i he
    right
    rcases h2 with h2 | ⟨a, b, c⟩
    · exact absurd h2 he
    · refine ⟨?_, a, b, c, h3⟩
      intro hn
      rw [hn] at b
      exact noLimit_neg b

theorem lowestComb_spec (xs : List IP) (hx : ∀ x ∈ xs, x.Ok) :
    let r := lowestComb xs
    r.Ok ∧ r.phases = lowestPhases (xs.map IP.phases) ∧
    ((r.cur = noLimit ∧ ∀ x ∈ xs, ¬ 0 ≤ x.cur) ∨ (r.cur ≠ noLimit ∧ 0 ≤ r.cur ∧ (∃ x ∈ xs, x.cur = r.cur) ∧ ∀ x ∈ xs, 0 ≤ x.cur → r.cur ≤ x.cur)) ∧
    ((r.pow = noLimit ∧ ∀ x ∈ xs, ¬ 0 ≤ x.pow) ∨ (r.pow ≠ noLimit ∧ 0 ≤ r.pow ∧ (∃ x ∈ xs, x.pow = r.pow) ∧ ∀ x ∈ xs, 0 ≤ x.pow → r.pow ≤ x.pow)) := by
  obtain ⟨f1, f2, f3⟩ := lowest_fold xs ⟨fltMax, fltMax, 0, 0, none⟩
  have c1 := min_cases (xs.map IP.cur) (by simp only [List.mem_map]; rintro _ ⟨x, h, rfl⟩; exact (hx x h).cur)
  have c2 := min_cases (xs.map IP.pow) (by simp only [List.mem_map]; rintro _ ⟨x, h, rfl⟩; exact (hx x h).pow)
  simp only at f1 f2 f3 c1 c2
  rw [← f1] at c1
  rw [← f2] at c2
  have e : (lowestComb xs).cur = (if (xs.foldl lowestStep ⟨fltMax, fltMax, 0, 0, none⟩).cur = fltMax then noLimit
        else (xs.foldl lowestStep ⟨fltMax, fltMax, 0, 0, none⟩).cur) ∧
      (lowestComb xs).pow = (if (xs.foldl lowestStep ⟨fltMax, fltMax, 0, 0, none⟩).pow = fltMax then noLimit
        else (xs.foldl lowestStep ⟨fltMax, fltMax, 0, 0, none⟩).pow) ∧
      (lowestComb xs).phases = (xs.foldl lowestStep ⟨fltMax, fltMax, 0, 0, none⟩).phases := by
    unfold lowestComb
    simp only
    refine ⟨?_, ?_, ?_⟩ <;> (repeat' split) <;> first | rfl | simp_all
  rw [← e.1] at c1
  rw [← e.2.1] at c2
  simp only [List.mem_map, forall_exists_index, and_imp, forall_apply_eq_imp_iff₂] at c1 c2
  refine ⟨⟨?_, ?_⟩, ?_, ?_, ?_⟩
  · rcases c1 with c | c
    · exact Or.inl c.1
    · exact Or.inr ⟨c.2.2.1, c.2.2.2.1⟩
  · rcases c2 with c | c
    · exact Or.inl c.1
    · exact Or.inr ⟨c.2.2.1, c.2.2.2.1⟩
  · rw [e.2.2, f3, pickLow_fold]; rfl
  · rcases c1 with c | ⟨a, b, c, d, e⟩
    · exact Or.inl c
    · exact Or.inr ⟨a, c, b, e⟩
  · rcases c2 with c | ⟨a, b, c, d, e⟩
    · exact Or.inl c
    · exact Or.inr ⟨a, c, b, e⟩

/-! ## Conversion -/

theorem convert_spec (unit : RUnit) (dl : Rat) (dp : Int) (v : Rat) (x : IP) (hx : x.Ok)
    (hA : ∀ l ∈ limits x, l.inUnit unit v (x.phases.getD dp) < fltMax) :
    let o := convert unit dl dp v x
    o.phases = x.phases ∧ (limits x = [] → o.limit = dl) ∧
    (limits x ≠ [] → IsMin o.limit ((limits x).map fun l => l.inUnit unit v (x.phases.getD dp))) := by
  have hcur : (x.cur = noLimit ↔ ¬ 0 ≤ x.cur) := by
    rcases hx.cur with h | h
    · simp [h, noLimit_neg]
    · constructor
      · intro h'; rw [h']; exact noLimit_neg
      · intro h'; exact absurd h.1 h'
  have hpow : (x.pow = noLimit ↔ ¬ 0 ≤ x.pow) := by
    rcases hx.pow with h | h
    · simp [h, noLimit_neg]
    · constructor
      · intro h'; rw [h']; exact noLimit_neg
      · intro h'; exact absurd h.1 h'
  have h1 := hx.cur
  have h2 := hx.pow
  unfold convert limits at *
  by_cases hc : 0 ≤ x.cur <;> by_cases hp : 0 ≤ x.pow
  · have e1 : x.cur ≠ noLimit := fun h => hcur.1 h hc
    have e2 : x.pow ≠ noLimit := fun h => hpow.1 h hp
    simp only [hc, hp, if_true, List.cons_append, List.nil_append, List.mem_cons, List.not_mem_nil, or_false, forall_eq_or_imp,
      forall_eq, Limit.inUnit] at hA
    cases unit with
    | A =>
      simp only [e1, e2, hc, hp, false_and, if_false, if_true, ne_eq, not_false_eq_true, true_and, List.cons_append, List.nil_append,
        IsMin, Limit.inUnit, List.map_cons, List.map_nil, List.mem_cons, List.not_mem_nil, or_false, forall_eq_or_imp, forall_eq,
        reduceCtorEq, false_implies, forall_const]
      split
      · refine ⟨rfl, Or.inr rfl, ?_, le_refl _⟩
        rename_i hlt; simp only at hlt ⊢; linarith
      · refine ⟨rfl, Or.inl rfl, le_refl _, ?_⟩
        rename_i hlt; simp only at hlt ⊢; linarith
    | W =>
      simp only [e1, e2, hc, hp, false_and, if_false, if_true, ne_eq, not_false_eq_true, true_and, List.cons_append, List.nil_append,
        IsMin, Limit.inUnit, List.map_cons, List.map_nil, List.mem_cons, List.not_mem_nil, or_false, forall_eq_or_imp, forall_eq,
        reduceCtorEq, false_implies, forall_const]
      split
      · refine ⟨rfl, Or.inl rfl, le_refl _, ?_⟩
        rename_i hlt; simp only at hlt ⊢; linarith
      · refine ⟨rfl, Or.inr rfl, ?_, le_refl _⟩
        rename_i hlt; simp only at hlt ⊢; linarith
  · have e1 : x.cur ≠ noLimit := fun h => hcur.1 h hc
    have e2 : x.pow = noLimit := hpow.2 hp
    rw [e2] at hp hA ⊢
    simp only [hc, hp, if_true, if_false, List.append_nil, List.mem_cons, List.not_mem_nil, or_false, 
      forall_eq, Limit.inUnit] at hA
    cases unit with
    | A =>
      simp only [e1, hc, hp, false_and, if_false, if_true, ne_eq, not_false_eq_true, not_true, true_and, List.append_nil,
        IsMin, Limit.inUnit, List.map_cons, List.map_nil, List.mem_cons, List.not_mem_nil, or_false, forall_eq_or_imp, forall_eq,
        reduceCtorEq, false_implies, forall_const, le_refl, and_self]
    | W =>
      simp only at hA
      simp only [e1, hc, hp, hA, false_and, if_false, if_true, ne_eq, not_false_eq_true, not_true, true_and, List.append_nil,
        IsMin, Limit.inUnit, List.map_cons, List.map_nil, List.mem_cons, List.not_mem_nil, or_false, forall_eq_or_imp, forall_eq,
        reduceCtorEq, false_implies, forall_const, le_refl, and_self]
  · have e1 : x.cur = noLimit := hcur.2 hc
    have e2 : x.pow ≠ noLimit := fun h => hpow.1 h hp
    rw [e1] at hc hA ⊢
    simp only [hc, hp, if_true, if_false, List.nil_append, List.mem_cons, List.not_mem_nil, or_false, 
      forall_eq, Limit.inUnit] at hA
    cases unit with
    | A =>
      simp only at hA
      simp only [e2, hc, hp, hA, false_and, and_false, if_false, if_true, ne_eq, not_false_eq_true, not_true, true_and, List.nil_append,
        IsMin, Limit.inUnit, List.map_cons, List.map_nil, List.mem_cons, List.not_mem_nil, or_false, forall_eq_or_imp, forall_eq,
        reduceCtorEq, false_implies, forall_const, le_refl, and_self]
    | W =>
      simp only [e2, hc, hp, false_and, and_false, if_false, if_true, ne_eq, not_false_eq_true, not_true, true_and, List.nil_append,
        IsMin, Limit.inUnit, List.map_cons, List.map_nil, List.mem_cons, List.not_mem_nil, or_false, forall_eq_or_imp, forall_eq,
        reduceCtorEq, false_implies, forall_const, le_refl, and_self]
  · have e1 : x.cur = noLimit := hcur.2 hc
    have e2 : x.pow = noLimit := hpow.2 hp
    rw [e1] at hc ⊢
    rw [e2] at hp ⊢
    simp [hc]

theorem limits_mem {x : IP} {l : Limit} : l ∈ limits x ↔
    l.phases = x.phases ∧ 0 ≤ l.value ∧ ((l.unit = .A ∧ l.value = x.cur) ∨ (l.unit = .W ∧ l.value = x.pow)) := by
  unfold limits
  obtain ⟨u, v, ph⟩ := l
  by_cases hc : 0 ≤ x.cur <;> by_cases hp : 0 ≤ x.pow <;> cases u <;> simp [hc, hp] <;> grind

theorem inUnit_mono {l l' : Limit} (unit : RUnit) (v : Rat) (n : Int) (hv : 0 < v) (hn : 0 < n) (hu : l.unit = l'.unit)
    (h : l.value ≤ l'.value) : l.inUnit unit v n ≤ l'.inUnit unit v n := by
  have hn' : (0 : Rat) < n := by exact_mod_cast hn
  have hp : 0 < v * (n : Rat) := mul_pos hv hn'
  unfold Limit.inUnit
  rw [← hu]
  cases l.unit <;> cases unit <;> simp only
  · exact h
  · exact mul_le_mul_of_nonneg_right h hp.le
  · exact div_le_div_of_nonneg_right h hp.le
  · exact h

theorem inUnit_congr {l l' : Limit} (unit : RUnit) (v : Rat) (n : Int) (hu : l.unit = l'.unit)
    (h : l.value = l'.value) : l.inUnit unit v n = l'.inUnit unit v n := by
  unfold Limit.inUnit
  rw [← hu, h]

/-- **Lowest limit, then conversion.** -/
theorem lowest_convert (unit : RUnit) (dl : Rat) (dp : Int) (v : Rat) (xs : List IP) (hx : ∀ x ∈ xs, x.Ok) (hv : 0 < v)
    (hn : 0 < (lowestPhases (xs.map IP.phases)).getD dp)
    (hA : ∀ x ∈ xs, ∀ l ∈ limits x, l.inUnit unit v ((lowestPhases (xs.map IP.phases)).getD dp) < fltMax) :
    let o := convert unit dl dp v (lowestComb xs)
    o.phases = lowestPhases (xs.map IP.phases) ∧ ((∀ x ∈ xs, limits x = []) → o.limit = dl) ∧
    ((∃ x ∈ xs, limits x ≠ []) → IsMin o.limit
      ((xs.flatMap limits).map fun l => l.inUnit unit v ((lowestPhases (xs.map IP.phases)).getD dp))) := by
  obtain ⟨ok, hph, hcur, hpow⟩ := lowestComb_spec xs hx
  have key : ∀ l ∈ limits (lowestComb xs), (∃ x ∈ xs, ∃ l' ∈ limits x, l'.unit = l.unit ∧ l'.value = l.value) := by
    intro l hl
    obtain ⟨h1, h2, h3⟩ := limits_mem.1 hl
    rcases h3 with ⟨h3, h4⟩ | ⟨h3, h4⟩
    · rcases hcur with ⟨hc, _⟩ | ⟨_, _, ⟨x, hx1, hx2⟩, _⟩
      · rw [h4, hc] at h2; exact absurd h2 noLimit_neg
      · exact ⟨x, hx1, ⟨.A, x.cur, x.phases⟩, limits_mem.2 ⟨rfl, by rw [hx2, ← h4]; exact h2, Or.inl ⟨rfl, rfl⟩⟩, h3.symm, by rw [h4, ← hx2]⟩
    · rcases hpow with ⟨hc, _⟩ | ⟨_, _, ⟨x, hx1, hx2⟩, _⟩
      · rw [h4, hc] at h2; exact absurd h2 noLimit_neg
      · exact ⟨x, hx1, ⟨.W, x.pow, x.phases⟩, limits_mem.2 ⟨rfl, by rw [hx2, ← h4]; exact h2, Or.inr ⟨rfl, rfl⟩⟩, h3.symm, by rw [h4, ← hx2]⟩
  have key2 : ∀ x ∈ xs, ∀ l ∈ limits x, ∃ l' ∈ limits (lowestComb xs), l'.unit = l.unit ∧ l'.value ≤ l.value := by
    intro x hx1 l hl
    obtain ⟨h1, h2, h3⟩ := limits_mem.1 hl
    rcases h3 with ⟨h3, h4⟩ | ⟨h3, h4⟩
    · rcases hcur with ⟨_, hc⟩ | ⟨_, c1, _, c2⟩
      · exact absurd (h4 ▸ h2) (hc x hx1)
      · exact ⟨⟨.A, (lowestComb xs).cur, (lowestComb xs).phases⟩, limits_mem.2 ⟨rfl, c1, Or.inl ⟨rfl, rfl⟩⟩, h3.symm,
          by rw [h4]; exact c2 x hx1 (h4 ▸ h2)⟩
    · rcases hpow with ⟨_, hc⟩ | ⟨_, c1, _, c2⟩
      · exact absurd (h4 ▸ h2) (hc x hx1)
      · exact ⟨⟨.W, (lowestComb xs).pow, (lowestComb xs).phases⟩, limits_mem.2 ⟨rfl, c1, Or.inr ⟨rfl, rfl⟩⟩, h3.symm,
          by rw [h4]; exact c2 x hx1 (h4 ▸ h2)⟩
  have cs := convert_spec unit dl dp v (lowestComb xs) ok (by
    rw [hph]
    intro l hl
    obtain ⟨x, hx1, l', hl', hu, hval⟩ := key l hl
    rw [← inUnit_congr unit v _ hu hval]
    exact hA x hx1 l' hl')
  rw [hph] at cs
  obtain ⟨c1, c2, c3⟩ := cs
  refine ⟨c1, ?_, ?_⟩
  · intro hall
    apply c2
    by_contra hne
    obtain ⟨l, hl⟩ := List.exists_mem_of_ne_nil _ hne
    obtain ⟨x, hx1, l', hl', _⟩ := key l hl
    rw [hall x hx1] at hl'; cases hl'
  · rintro ⟨x, hx1, hne⟩
    obtain ⟨l, hl⟩ := List.exists_mem_of_ne_nil _ hne
    obtain ⟨l', hl', _⟩ := key2 x hx1 l hl
    have hmin := c3 (List.ne_nil_of_mem hl')
    refine ⟨?_, ?_⟩
    · obtain ⟨m, hm, he⟩ := List.mem_map.1 hmin.1
      obtain ⟨y, hy, m', hm', hu, hval⟩ := key m hm
      rw [← he]
      simp only [List.mem_map, List.mem_flatMap]
      exact ⟨m', ⟨y, hy, hm'⟩, inUnit_congr unit v _ hu hval⟩
    · intro y hy
      simp only [List.mem_map, List.mem_flatMap] at hy
      obtain ⟨m, ⟨z, hz, hm⟩, rfl⟩ := hy
      obtain ⟨m', hm', hu, hle⟩ := key2 z hz m hm
      have := hmin.2 _ (List.mem_map.2 ⟨m', hm', rfl⟩)
      exact le_trans this (inUnit_mono unit v _ hv hn hu hle)

/-! ## Duplicates -/

theorem dedup_mem : ∀ (l : List (Step Out)) (last : Option Out), ∀ s ∈ dedup last l, s ∈ l := by
  intro l
  induction l with
  | nil => intro last s hs; simp [dedup] at hs
  | cons a l ih =>
    intro last s hs
    unfold dedup at hs
    split at hs
    · split at hs
      · rcases List.mem_cons.1 hs with rfl | hs
        · simp
        · exact List.mem_cons_of_mem _ (ih _ s hs)
      · exact List.mem_cons_of_mem _ (ih _ s hs)
    · rcases List.mem_cons.1 hs with rfl | hs
      · simp
      · exact List.mem_cons_of_mem _ (ih _ s hs)

theorem dedup_sublist : ∀ (l : List (Step Out)) (last : Option Out), (dedup last l).Sublist l := by
  intro l
  induction l with
  | nil => intro last; simp [dedup]
  | cons a l ih =>
    intro last
    unfold dedup
    split
    · split
      · exact (ih _).cons_cons a
      · exact (ih _).cons a
    · exact (ih _).cons_cons a

/-- What a reader of the schedule sees. -/
def Out.Same (a b : Out) : Prop := a.limit = b.limit ∧ a.phases = b.phases ∧ a.stackLevel = b.stackLevel

theorem dedup_differ : ∀ (l : List (Step Out)) (last : Option Out),
    (∀ a rest, dedup last l = a :: rest → ∀ x, last = some x → ¬ a.val.Same x) ∧
    (dedup last l).IsChain (fun a b => ¬ b.val.Same a.val) := by
  intro l
  induction l with
  | nil => intro last; simp [dedup]
  | cons a l ih =>
    intro last
    have hcons : (a :: dedup (some a.val) l).IsChain (fun a b => ¬ b.val.Same a.val) := by
      obtain ⟨h1, h2⟩ := ih (some a.val)
      cases hd : dedup (some a.val) l with
      | nil => simp
      | cons b rest =>
        rw [hd] at h2
        exact List.IsChain.cons_cons (h1 b rest hd _ rfl) h2
    unfold dedup
    split
    · rename_i x
      split
      · rename_i hc
        refine ⟨?_, hcons⟩
        intro b rest hb y hy hs
        injection hb with h1 h2
        injection hy with h3
        subst h1 h3
        obtain ⟨s1, s2, s3⟩ := hs
        simp [s1, s2, s3] at hc
      · exact ih (some x)
    · exact ⟨by simp, hcons⟩

/-- Removing duplicates does not change what the list says. -/
theorem dedup_valueAt : ∀ (l : List (Step Out)) (last : Option Out) (t : Int), l.Pairwise (fun a b => a.start < b.start) →
    match valueAt l t with
    | none => valueAt (dedup last l) t = none
    | some v => (∃ w, valueAt (dedup last l) t = some w ∧ w.Same v) ∨
        (valueAt (dedup last l) t = none ∧ ∃ x, last = some x ∧ x.Same v) := by
  intro l
  induction l with
  | nil => intro last t _; simp [valueAt, dedup]
  | cons a l ih =>
    intro last t hp
    obtain ⟨ha, hl⟩ := List.pairwise_cons.1 hp
    by_cases hlater : ∃ s ∈ l, s.start ≤ t
    · -- a later element decides
      have e : ∀ m : List (Step Out), (∃ s ∈ m, s.start ≤ t) → valueAt (a :: m) t = valueAt m t := by
        intro m hm
        exact valueAt_cons_of_later a m t hm
      rw [e l hlater]
      have hsome : ∃ v, valueAt l t = some v := by
        cases hv : valueAt l t with
        | some v => exact ⟨v, rfl⟩
        | none =>
          unfold valueAt at hv
          simp only [Option.map_eq_none_iff, List.getLast?_eq_none_iff, List.filter_eq_nil_iff] at hv
          obtain ⟨s, hs, hs'⟩ := hlater
          have := hv s hs
          simp [hs'] at this
      obtain ⟨v, hv⟩ := hsome
      have hat : a.start ≤ t := by
        obtain ⟨s, hs, hs'⟩ := hlater
        have := ha s hs
        omega
      have keep : ∃ w, valueAt (a :: dedup (some a.val) l) t = some w ∧ w.Same v := by
        have := ih (some a.val) t hl
        rw [hv] at this
        simp only at this
        rcases this with ⟨w, hw, hs⟩ | ⟨hn, x, hx, hs⟩
        · refine ⟨w, ?_, hs⟩
          rw [e]
          · exact hw
          · unfold valueAt at hw
            obtain ⟨y, hy, _⟩ := Option.map_eq_some_iff.1 hw
            have := List.mem_of_getLast? hy
            rw [List.mem_filter] at this
            exact ⟨y, this.1, by simpa using this.2⟩
        · injection hx with hx
          subst hx
          refine ⟨a.val, ?_, hs⟩
          apply valueAt_cons_of_none_later _ _ _ hat
          intro s hs'
          unfold valueAt at hn
          simp only [Option.map_eq_none_iff, List.getLast?_eq_none_iff, List.filter_eq_nil_iff] at hn
          have := hn s hs'
          simp only [decide_eq_true_eq] at this
          omega
      cases last with
      | none => rw [hv]; exact Or.inl keep
      | some x =>
        simp only [dedup]
        split
        · rename_i v' heq
          rw [hv] at heq; cases heq
        · rename_i v' heq
          rw [hv] at heq; injection heq with heq; subst heq
          split
          · exact Or.inl keep
          · have := ih (some x) t hl
            rw [hv] at this
            exact this
    · have hnl : ∀ s ∈ l, ¬ s.start ≤ t := fun s hs h => hlater ⟨s, hs, h⟩
      have hn : ∀ la, ∀ s ∈ dedup la l, ¬ s.start ≤ t := fun la s hs => hnl s (dedup_mem l la s hs)
      have hvn : ∀ la, valueAt (dedup la l) t = none := by
        intro la
        unfold valueAt
        simp only [Option.map_eq_none_iff, List.getLast?_eq_none_iff, List.filter_eq_nil_iff, decide_eq_true_eq]
        exact hn la
      by_cases hat : a.start ≤ t
      · have hva : valueAt (a :: l) t = some a.val :=
          valueAt_cons_of_none_later a l t hat (fun s hs => by have := hnl s hs; omega)
        rw [hva]
        simp only
        have keep : valueAt (a :: dedup (some a.val) l) t = some a.val :=
          valueAt_cons_of_none_later a _ t hat (fun s hs => by have := hn _ s hs; omega)
        unfold dedup
        split
        · rename_i x
          split
          · exact Or.inl ⟨a.val, keep, rfl, rfl, rfl⟩
          · rename_i hc
            right
            refine ⟨hvn _, x, rfl, ?_⟩
            simp only [not_or, ne_eq, not_not] at hc
            exact ⟨hc.1.symm, hc.2.1.symm, hc.2.2.symm⟩
        · exact Or.inl ⟨a.val, keep, rfl, rfl, rfl⟩
      · have hva : valueAt (a :: l) t = none := by
          unfold valueAt
          simp only [Option.map_eq_none_iff, List.getLast?_eq_none_iff, List.filter_eq_nil_iff, decide_eq_true_eq, List.mem_cons]
          rintro s (rfl | hs)
          · exact hat
          · exact hnl s hs
        rw [hva]
        simp only
        unfold valueAt
        simp only [Option.map_eq_none_iff, List.getLast?_eq_none_iff, List.filter_eq_nil_iff, decide_eq_true_eq]
        intro s hs
        rcases List.mem_cons.1 (dedup_mem _ _ s hs) with rfl | hs
        · exact hat
        · exact hnl s hs

theorem valueAt_map {α β : Type} (f : α → β) (l : List (Step α)) (t : Int) :
    valueAt (l.map fun s => (⟨s.start, f s.val⟩ : Step β)) t = (valueAt l t).map f := by
  unfold valueAt
  rw [List.filter_map, List.getLast?_map, Option.map_map, Option.map_map]
  rfl

end Verif.SC16
