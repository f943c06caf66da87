import Verif.DeviceModel.Spec
import Mathlib.Algebra.Order.Ring.Rat
import Mathlib.Algebra.Order.Floor.Defs
import Mathlib.Data.Rat.Floor
import Mathlib.Tactic.Linarith
/-
Lemmas about the texts of values: the functions of the model read them as the specification says.
-/
set_option linter.constructorNameAsVariable false

namespace Verif.DM

theorem isDigit_iff (c : Char) : isDigit c = true ↔ '0' ≤ c ∧ c ≤ '9' := by
  simp only [isDigit, decide_eq_true_eq, Char.le_def, UInt32.le_iff_toNat_le]
  rfl

theorem all_digits (v : Str) : v.all isDigit = true ↔ Digits v := by
  simp only [List.all_eq_true, isDigit_iff, Digits]

theorem natOf_acc (ds : Str) : ∀ a, ds.foldl (fun a d => 10 * a + (d.toNat - '0'.toNat)) a
    = a * 10 ^ ds.length + decimalNumber ds := by
  induction ds with
  | nil => intro a; simp [decimalNumber]
  | cons d r ih =>
    intro a
    simp only [List.foldl_cons, ih, decimalNumber, List.length_cons]
    rw [show '0'.toNat = 48 from rfl, Nat.add_mul, Nat.pow_succ]
    rw [Nat.mul_comm 10 a, Nat.mul_assoc, Nat.mul_comm 10 (10 ^ r.length), Nat.add_assoc]

theorem natOf_eq (ds : Str) : natOf ds = decimalNumber ds := by
  unfold natOf; rw [natOf_acc]; simp

theorem plus_not_digit : ¬ ('0' ≤ '+' ∧ '+' ≤ '9') := by decide
theorem minus_not_digit : ¬ ('0' ≤ '-' ∧ '-' ≤ '9') := by decide
theorem point_not_digit : ¬ ('0' ≤ '.' ∧ '.' ≤ '9') := by decide

/-- What `is_integer` and `stoi` accept together. -/
theorem integer_iff (v : Str) (n : Int) :
    (isInteger v = true ∧ stoi v = some n) ↔ (IsIntegerText v n ∧ -2147483648 ≤ n ∧ n ≤ 2147483647) := by
  constructor
  · rintro ⟨h1, h2⟩
    cases v with
    | nil => simp [stoi] at h2
    | cons c r =>
      by_cases hs : c = '+' ∨ c = '-'
      · simp only [isInteger, if_pos hs, all_digits] at h1
        simp only [stoi, if_pos hs] at h2
        by_cases hr : r = []
        · simp [hr] at h2
        · simp only [if_neg hr] at h2
          rw [natOf_eq] at h2
          rcases hs with rfl | rfl
          · simp only [show ('+' : Char) ≠ '-' from by decide, if_false] at h2
            split at h2
            · simp at h2
            · injection h2 with h2
              exact ⟨⟨r, hr, h1, .inr (.inl ⟨rfl, h2.symm⟩)⟩, by omega, by omega⟩
          · simp only [if_true] at h2
            split at h2
            · simp at h2
            · injection h2 with h2
              exact ⟨⟨r, hr, h1, .inr (.inr ⟨rfl, h2.symm⟩)⟩, by omega, by omega⟩
      · simp only [isInteger, if_neg hs, all_digits] at h1
        have hm : c ≠ '-' := fun h => hs (.inr h)
        simp only [stoi, if_neg hs, if_neg hm, natOf_eq] at h2
        simp only [reduceCtorEq, if_false] at h2
        split at h2
        · simp at h2
        · rename_i hlim
          injection h2 with h2
          exact ⟨⟨c :: r, by simp, h1, .inl ⟨rfl, h2.symm⟩⟩, by omega, by omega⟩
  · rintro ⟨⟨ds, hne, hd, h⟩, hlo, hhi⟩
    rcases h with ⟨rfl, hn⟩ | ⟨rfl, hn⟩ | ⟨rfl, hn⟩
    · cases v with
      | nil => exact absurd rfl hne
      | cons c r =>
        have hs : ¬ (c = '+' ∨ c = '-') := by
          rintro (rfl | rfl)
          · exact plus_not_digit (hd _ (by simp))
          · exact minus_not_digit (hd _ (by simp))
        have hm : c ≠ '-' := fun h => hs (.inr h)
        refine ⟨by simp only [isInteger, if_neg hs, all_digits]; exact hd, ?_⟩
        simp only [stoi, if_neg hs, if_neg hm, natOf_eq, ← hn]
        rw [if_neg (by simp), if_neg (by omega)]
    · refine ⟨by simp only [isInteger, true_or, if_true, all_digits]; exact hd, ?_⟩
      simp only [stoi, true_or, if_true, natOf_eq, show ('+' : Char) ≠ '-' from by decide, if_false]
      rw [if_neg hne, if_neg (by omega), hn]
    · refine ⟨by simp only [isInteger, or_true, if_true, all_digits]; exact hd, ?_⟩
      simp only [stoi, or_true, if_true, natOf_eq]
      rw [if_neg hne, if_neg (by omega), hn]

theorem IsIntegerText.unique {v : Str} {n m : Int} (h1 : IsIntegerText v n) (h2 : IsIntegerText v m) : n = m := by
  obtain ⟨ds, hne, hd, h⟩ := h1
  obtain ⟨es, hne', he, h'⟩ := h2
  have np : ∀ {x : Str} {c : Char}, Digits (c :: x) → c ≠ '+' ∧ c ≠ '-' := by
    intro x c hx
    refine ⟨?_, ?_⟩ <;> rintro rfl
    · exact plus_not_digit (hx _ (by simp))
    · exact minus_not_digit (hx _ (by simp))
  rcases h with ⟨rfl, hn⟩ | ⟨rfl, hn⟩ | ⟨rfl, hn⟩ <;> rcases h' with ⟨h', hm⟩ | ⟨h', hm⟩ | ⟨h', hm⟩
  · subst h'; omega
  · subst h'; exact absurd rfl (np hd).1
  · subst h'; exact absurd rfl (np hd).2
  · subst h'; exact absurd rfl (np he).1
  · injection h' with _ h'; subst h'; omega
  · injection h' with h' _; exact absurd h' (by decide)
  · subst h'; exact absurd rfl (np he).2
  · injection h' with h' _; exact absurd h' (by decide)
  · injection h' with _ h'; subst h'; omega

/-! ### Decimals -/

theorem decimalLoop_true (v : Str) : decimalLoop true v = true ↔ Digits v := by
  induction v with
  | nil => simp [decimalLoop, Digits]
  | cons c r ih =>
    simp only [decimalLoop, if_true]
    by_cases hp : c = '.'
    · subst hp; simp only [if_true, Bool.false_eq_true, false_iff]
      intro h; exact point_not_digit (h _ (by simp))
    · simp only [if_neg hp]
      by_cases hd : isDigit c = true
      · simp only [hd, if_true, ih]
        have := (isDigit_iff c).mp hd
        constructor
        · intro h x hx; rcases List.mem_cons.mp hx with rfl | hx
          · exact this
          · exact h x hx
        · intro h x hx; exact h x (by simp [hx])
      · simp only [hd, if_false, Bool.false_eq_true, false_iff]
        intro h; exact hd ((isDigit_iff c).mpr (h _ (by simp)))

theorem decimalLoop_false (v : Str) :
    decimalLoop false v = true ↔ Digits v ∨ ∃ i f, v = i ++ '.' :: f ∧ Digits i ∧ Digits f := by
  induction v with
  | nil => simp [decimalLoop, Digits]
  | cons c r ih =>
    simp only [decimalLoop, Bool.false_eq_true, if_false]
    by_cases hp : c = '.'
    · subst hp; simp only [if_true, decimalLoop_true]
      constructor
      · intro h; exact .inr ⟨[], r, rfl, by simp [Digits], h⟩
      · rintro (h | ⟨i, f, h, hi, hf⟩)
        · exact absurd (h _ (by simp)) point_not_digit
        · cases i with
          | nil => simp only [List.nil_append, List.cons.injEq, true_and] at h; subst h; exact hf
          | cons a i => simp only [List.cons_append, List.cons.injEq] at h
                        exact absurd (hi a (by simp)) (h.1 ▸ point_not_digit)
    · simp only [if_neg hp]
      by_cases hd : isDigit c = true
      · simp only [hd, if_true, ih]
        have hc := (isDigit_iff c).mp hd
        have ext : ∀ {x : Str}, Digits x → Digits (c :: x) := by
          intro x h y hy; rcases List.mem_cons.mp hy with rfl | hy
          · exact hc
          · exact h y hy
        constructor
        · rintro (h | ⟨i, f, rfl, hi, hf⟩)
          · exact .inl (ext h)
          · exact .inr ⟨c :: i, f, rfl, ext hi, hf⟩
        · rintro (h | ⟨i, f, h, hi, hf⟩)
          · exact .inl (fun x hx => h x (by simp [hx]))
          · cases i with
            | nil => simp only [List.nil_append, List.cons.injEq] at h; exact absurd h.1 hp
            | cons a i =>
              simp only [List.cons_append, List.cons.injEq] at h
              exact .inr ⟨i, f, h.2, fun x hx => hi x (by simp [hx]), hf⟩
      · simp only [hd, if_false, Bool.false_eq_true, false_iff]
        have hnd : ¬ ('0' ≤ c ∧ c ≤ '9') := fun h => hd ((isDigit_iff c).mpr h)
        rintro (h | ⟨i, f, h, hi, hf⟩)
        · exact hnd (h _ (by simp))
        · cases i with
          | nil => simp only [List.nil_append, List.cons.injEq] at h; exact hp h.1
          | cons a i => simp only [List.cons_append, List.cons.injEq] at h; exact hnd (h.1 ▸ hi a (by simp))

theorem takeWhile_digits {v : Str} (h : Digits v) : v.takeWhile isDigit = v := by
  have := List.takeWhile_append_of_pos (l₂ := []) (fun x hx => (isDigit_iff x).mpr (h x hx))
  simpa using this

theorem dropWhile_digits {v : Str} (h : Digits v) : v.dropWhile isDigit = [] := by
  have := List.dropWhile_append_of_pos (l₂ := []) (fun x hx => (isDigit_iff x).mpr (h x hx))
  simpa using this

theorem takeWhile_point {i f : Str} (h : Digits i) : (i ++ '.' :: f).takeWhile isDigit = i := by
  rw [List.takeWhile_append_of_pos (fun x hx => (isDigit_iff x).mpr (h x hx))]
  simp [show isDigit '.' = false from by decide]

theorem dropWhile_point {i f : Str} (h : Digits i) : (i ++ '.' :: f).dropWhile isDigit = '.' :: f := by
  rw [List.dropWhile_append_of_pos (fun x hx => (isDigit_iff x).mpr (h x hx))]
  simp [show isDigit '.' = false from by decide]

theorem unsignedDecimal_digits {v : Str} (h : Digits v) :
    unsignedDecimal v = if v = [] then none else some ((decimalNumber v : Nat) : Rat) := by
  simp only [unsignedDecimal, takeWhile_digits h, dropWhile_digits h, and_true]
  by_cases hv : v = []
  · simp [hv]
  · simp [hv, natOf_eq, decimalNumber]

theorem unsignedDecimal_point {i f : Str} (hi : Digits i) (hf : Digits f) :
    unsignedDecimal (i ++ '.' :: f) = if i = [] ∧ f = [] then none
      else some (decimalNumber i + decimalNumber f / ((10 ^ f.length : Nat) : Rat)) := by
  simp only [unsignedDecimal, takeWhile_point hi, dropWhile_point hi, takeWhile_digits hf, natOf_eq]

theorem unsignedDecimal_iff (v : Str) (x : Rat) :
    (decimalLoop false v = true ∧ unsignedDecimal v = some x) ↔ IsUnsignedDecimalText v x := by
  rw [decimalLoop_false]
  constructor
  · rintro ⟨h | ⟨i, f, rfl, hi, hf⟩, hx⟩
    · rw [unsignedDecimal_digits h] at hx
      split at hx
      · simp at hx
      · rename_i hne
        injection hx with hx
        exact .inl ⟨h, hne, hx.symm⟩
    · rw [unsignedDecimal_point hi hf] at hx
      split at hx
      · simp at hx
      · rename_i hne
        injection hx with hx
        refine .inr ⟨i, f, rfl, hi, hf, ?_, hx.symm⟩
        by_cases h1 : i = []
        · exact .inr (fun h2 => hne ⟨h1, h2⟩)
        · exact .inl h1
  · rintro (⟨h, hne, rfl⟩ | ⟨i, f, rfl, hi, hf, hne, rfl⟩)
    · exact ⟨.inl h, by rw [unsignedDecimal_digits h, if_neg hne]⟩
    · refine ⟨.inr ⟨i, f, rfl, hi, hf⟩, ?_⟩
      rw [unsignedDecimal_point hi hf, if_neg (by rintro ⟨rfl, rfl⟩; simp at hne)]

theorem unsigned_head {c : Char} {r : Str} {x : Rat} (h : IsUnsignedDecimalText (c :: r) x) :
    ¬ (c = '+' ∨ c = '-') := by
  rintro hs
  have hnd : ¬ ('0' ≤ c ∧ c ≤ '9') := by
    rcases hs with rfl | rfl
    · exact plus_not_digit
    · exact minus_not_digit
  rcases h with ⟨h, _, _⟩ | ⟨i, f, h, hi, _⟩
  · exact hnd (h _ (by simp))
  · cases i with
    | nil => simp only [List.nil_append, List.cons.injEq] at h
             rcases hs with rfl | rfl <;> exact absurd h.1 (by decide)
    | cons a i => simp only [List.cons_append, List.cons.injEq] at h; exact hnd (h.1 ▸ hi a (by simp))

theorem IsUnsignedDecimalText.ne_nil {v : Str} {x : Rat} (h : IsUnsignedDecimalText v x) : v ≠ [] := by
  rcases h with ⟨_, h, _⟩ | ⟨i, f, rfl, _⟩
  · exact h
  · simp

theorem IsUnsignedDecimalText.unique {v : Str} {x y : Rat} (h1 : IsUnsignedDecimalText v x)
    (h2 : IsUnsignedDecimalText v y) : x = y := by
  have a := ((unsignedDecimal_iff v x).mpr h1).2
  have b := ((unsignedDecimal_iff v y).mpr h2).2
  exact Option.some.inj (a.symm.trans b)

/-- The largest number `stof` does not refuse. -/
abbrev floatBound : Rat := ((2 ^ 128 - 2 ^ 103 : Nat) : Rat)

/-- What `is_decimal_number` and `stof` accept together. -/
theorem decimal_iff (v : Str) (x : Rat) :
    (isDecimal v = true ∧ stof v = some x) ↔ (IsDecimalText v x ∧ ¬ (floatBound ≤ x ∨ floatBound ≤ -x)) := by
  have hpos : (0 : Rat) < floatBound := by decide +kernel
  have nonneg : ∀ {w : Str} {z : Rat}, IsUnsignedDecimalText w z → 0 ≤ z := by
    rintro w z (⟨_, _, rfl⟩ | ⟨i, f, _, _, _, _, rfl⟩)
    · exact Nat.cast_nonneg _
    · have h1 : (0 : Rat) ≤ decimalNumber i := Nat.cast_nonneg _
      have h2 : (0 : Rat) ≤ decimalNumber f / ((10 ^ f.length : Nat) : Rat) := Rat.div_nonneg (Nat.cast_nonneg _) (Nat.cast_nonneg _)
      linarith
  cases v with
  | nil =>
    simp only [isDecimal, Bool.false_eq_true, false_and, false_iff]
    rintro ⟨h | ⟨w, h, _⟩ | ⟨w, y, h, _⟩, _⟩
    · exact h.ne_nil rfl
    · simp at h
    · simp at h
  | cons c r =>
    by_cases hs : c = '+' ∨ c = '-'
    · simp only [isDecimal, stof, if_pos hs]
      rcases hs with rfl | rfl
      · have e : ∀ x, IsDecimalText ('+' :: r) x ↔ IsUnsignedDecimalText r x := by
          intro x
          constructor
          · rintro (h | ⟨w, h, hw⟩ | ⟨w, y, h, _⟩)
            · exact absurd (.inl rfl) (unsigned_head h)
            · injection h with _ h; subst h; exact hw
            · simp at h
          · intro h; exact .inr (.inl ⟨r, rfl, h⟩)
        rw [e, ← unsignedDecimal_iff]
        cases hu : unsignedDecimal r with
        | none => simp
        | some z =>
          simp only [show ('+' : Char) ≠ '-' from by decide, if_false]
          constructor
          · rintro ⟨h1, h2⟩
            split at h2
            · simp at h2
            · rename_i hb
              injection h2 with h2; subst h2
              have := nonneg ((unsignedDecimal_iff r z).mp ⟨h1, hu⟩)
              exact ⟨⟨h1, rfl⟩, by rintro (h | h); exact hb h; linarith⟩
          · rintro ⟨⟨h1, h2⟩, h3⟩
            injection h2 with h2; subst h2
            exact ⟨h1, by rw [if_neg (fun h => h3 (.inl h))]⟩
      · have e : ∀ x, IsDecimalText ('-' :: r) x ↔ IsUnsignedDecimalText r (-x) := by
          intro x
          constructor
          · rintro (h | ⟨w, h, hw⟩ | ⟨w, y, h, hw, rfl⟩)
            · exact absurd (.inr rfl) (unsigned_head h)
            · simp at h
            · injection h with _ h; subst h; rw [neg_neg]; exact hw
          · intro h; exact .inr (.inr ⟨r, -x, rfl, h, by rw [neg_neg]⟩)
        rw [e, ← unsignedDecimal_iff]
        cases hu : unsignedDecimal r with
        | none => simp
        | some z =>
          simp only [if_true]
          constructor
          · rintro ⟨h1, h2⟩
            split at h2
            · simp at h2
            · rename_i hb
              injection h2 with h2; subst h2
              have := nonneg ((unsignedDecimal_iff r z).mp ⟨h1, hu⟩)
              refine ⟨⟨h1, by rw [neg_neg]⟩, ?_⟩
              rintro (h | h)
              · linarith
              · rw [neg_neg] at h; exact hb h
          · rintro ⟨⟨h1, h2⟩, h3⟩
            injection h2 with h2; subst h2
            exact ⟨h1, by rw [if_neg (fun h => h3 (.inr h)), neg_neg]⟩
    · have hm : c ≠ '-' := fun h => hs (.inr h)
      have e : ∀ x, IsDecimalText (c :: r) x ↔ IsUnsignedDecimalText (c :: r) x := by
        intro x
        constructor
        · rintro (h | ⟨w, h, hw⟩ | ⟨w, y, h, _⟩)
          · exact h
          · injection h with h _; exact absurd (.inl h) hs
          · injection h with h _; exact absurd (.inr h) hs
        · intro h; exact .inl h
      simp only [isDecimal, stof, if_neg hs, if_neg hm]
      rw [e, ← unsignedDecimal_iff]
      cases hu : unsignedDecimal (c :: r) with
      | none => simp
      | some z =>
        constructor
        · rintro ⟨h1, h2⟩
          simp only at h2
          split at h2
          · simp at h2
          · rename_i hb
            injection h2 with h2; subst h2
            have := nonneg ((unsignedDecimal_iff (c :: r) z).mp ⟨h1, hu⟩)
            exact ⟨⟨h1, rfl⟩, by rintro (h | h); exact hb h; linarith⟩
        · rintro ⟨⟨h1, h2⟩, h3⟩
          injection h2 with h2; subst h2
          refine ⟨h1, ?_⟩
          simp only
          rw [if_neg (fun h => h3 (.inl h))]

theorem isDecimal_of_text {v : Str} {x : Rat} (h : IsDecimalText v x) : isDecimal v = true := by
  rcases h with h | ⟨w, rfl, h⟩ | ⟨w, y, rfl, h, _⟩
  · cases v with
    | nil => exact absurd rfl h.ne_nil
    | cons c r =>
      simp only [isDecimal, if_neg (unsigned_head h)]
      exact ((unsignedDecimal_iff _ _).mpr h).1
  · simp only [isDecimal, true_or, if_true]
    exact ((unsignedDecimal_iff _ _).mpr h).1
  · simp only [isDecimal, or_true, if_true]
    exact ((unsignedDecimal_iff _ _).mpr h).1

theorem isInteger_of_text {v : Str} {n : Int} (h : IsIntegerText v n) : isInteger v = true := by
  obtain ⟨ds, hne, hd, h⟩ := h
  rcases h with ⟨rfl, _⟩ | ⟨rfl, _⟩ | ⟨rfl, _⟩
  · cases v with
    | nil => exact absurd rfl hne
    | cons c r =>
      have hs : ¬ (c = '+' ∨ c = '-') := by
        rintro (rfl | rfl)
        · exact plus_not_digit (hd _ (by simp))
        · exact minus_not_digit (hd _ (by simp))
      simp only [isInteger, if_neg hs, all_digits]; exact hd
  · simp only [isInteger, true_or, if_true, all_digits]; exact hd
  · simp only [isInteger, or_true, if_true, all_digits]; exact hd

/-! ### Lists -/

theorem splitLoop_nil_iff (x cur : Str) :
    x ∈ splitLoop cur [] ↔ (cur ≠ [] ∧ x = cur.reverse) := by
  simp only [splitLoop]
  by_cases h : cur = []
  · simp [h]
  · simp [h]

/-- The pieces of a text to which a piece without comma is put in front. -/
theorem splitLoop_iff (x s : Str) : ∀ cur, ',' ∉ cur → (x ∈ splitLoop cur s ↔ Piece x (cur.reverse ++ s)) := by
  induction s with
  | nil =>
    intro cur hc
    rw [splitLoop_nil_iff, List.append_nil]
    constructor
    · rintro ⟨h, rfl⟩
      exact ⟨[], [], by simp, by simpa using hc, .inl rfl, .inl ⟨rfl, by simpa using h⟩⟩
    · rintro ⟨pre, post, h, hx, hp, hq⟩
      have hcomma : ',' ∉ cur.reverse := by simpa using hc
      have h1 : pre = [] := by
        rcases hp with rfl | ⟨p, rfl⟩
        · rfl
        · exact absurd (by rw [h]; simp) hcomma
      have h2 : post = [] ∧ x ≠ [] := by
        rcases hq with hq | ⟨q, rfl⟩
        · exact hq
        · exact absurd (by rw [h]; simp) hcomma
      subst h1; rw [h2.1] at h
      simp only [List.nil_append, List.append_nil] at h
      exact ⟨by intro e; apply h2.2; rw [← h, e]; rfl, h.symm⟩
  | cons c r ih =>
    intro cur hc
    by_cases hcm : c = ','
    · subst hcm
      simp only [splitLoop, if_true, List.mem_cons]
      rw [ih [] (by simp)]
      simp only [List.reverse_nil, List.nil_append]
      constructor
      · rintro (rfl | ⟨pre, post, h, hx, hp, hq⟩)
        · exact ⟨[], ',' :: r, by simp, by simpa using hc, .inl rfl, .inr ⟨r, rfl⟩⟩
        · refine ⟨cur.reverse ++ ',' :: pre, post, by rw [h]; simp, hx, .inr ?_, hq⟩
          rcases hp with rfl | ⟨p, rfl⟩
          · exact ⟨cur.reverse, rfl⟩
          · exact ⟨cur.reverse ++ ',' :: p, by simp⟩
      · rintro ⟨pre, post, h, hx, hp, hq⟩
        rcases hp with rfl | ⟨p, rfl⟩
        · left
          simp only [List.nil_append] at h
          rcases hq with ⟨rfl, _⟩ | ⟨q, rfl⟩
          · exfalso; apply hx; rw [← List.append_nil x, ← h]; simp
          · -- both are cut at the first comma
            have hcr : ',' ∉ cur.reverse := by simpa using hc
            have key : ∀ (a b u w : Str), ',' ∉ a → ',' ∉ b → a ++ ',' :: u = b ++ ',' :: w → a = b ∧ u = w := by
              intro a
              induction a with
              | nil =>
                intro b u w _ hb h
                cases b with
                | nil => simp at h; exact ⟨rfl, h⟩
                | cons y b => simp only [List.nil_append, List.cons_append, List.cons.injEq] at h
                              exact absurd (by rw [h.1]; simp) hb
              | cons y a iha =>
                intro b u w ha hb h
                cases b with
                | nil => simp only [List.nil_append, List.cons_append, List.cons.injEq] at h
                         exact absurd (by rw [h.1]; simp) ha
                | cons z b =>
                  simp only [List.cons_append, List.cons.injEq] at h
                  obtain ⟨h1, h2⟩ := iha b u w (fun m => ha (by simp [m])) (fun m => hb (by simp [m])) h.2
                  exact ⟨by rw [h.1, h1], h2⟩
            exact (key _ _ _ _ hcr hx h).1.symm
        · right
          -- the prefix ends with a comma, so the first comma is inside it
          have hcr : ',' ∉ cur.reverse := by simpa using hc
          have key : ∀ (a p t u : Str), ',' ∉ a → a ++ ',' :: u = p ++ ',' :: t →
              (p = a ∧ u = t) ∨ ∃ p', p = a ++ ',' :: p' ∧ u = p' ++ ',' :: t := by
            intro a
            induction a with
            | nil =>
              intro p t u _ h
              cases p with
              | nil => simp at h; exact .inl ⟨rfl, h⟩
              | cons y p =>
                simp only [List.nil_append, List.cons_append, List.cons.injEq] at h
                exact .inr ⟨p, by rw [← h.1]; rfl, h.2⟩
            | cons y a iha =>
              intro p t u ha h
              cases p with
              | nil => simp only [List.nil_append, List.cons_append, List.cons.injEq] at h
                       exact absurd (by rw [h.1]; simp) ha
              | cons z p =>
                simp only [List.cons_append, List.cons.injEq] at h
                rcases iha p t u (fun m => ha (by simp [m])) h.2 with ⟨h1, h2⟩ | ⟨p', h1, h2⟩
                · exact .inl ⟨by rw [h.1, h1], h2⟩
                · exact .inr ⟨p', by rw [h.1, h1]; rfl, h2⟩
          have h' : cur.reverse ++ ',' :: r = p ++ ',' :: (x ++ post) := by rw [h]; simp
          rcases key _ _ _ _ hcr h' with ⟨_, h2⟩ | ⟨p', _, h2⟩
          · exact ⟨[], post, by simpa using h2, hx, .inl rfl, hq⟩
          · exact ⟨p' ++ [','], post, by rw [h2]; simp, hx, .inr ⟨p', rfl⟩, hq⟩
    · simp only [splitLoop, if_neg hcm]
      rw [ih (c :: cur) (by simp only [List.mem_cons, not_or]; exact ⟨fun h => hcm h.symm, hc⟩)]
      simp

theorem mem_split (x s : Str) : x ∈ splitString s ↔ Piece x s := by
  have h := splitLoop_iff x s [] (by simp)
  simp only [List.reverse_nil, List.nil_append] at h
  exact h

/-! ### Limits -/

theorem positiveSize_nat (k : Nat) : positiveSize (k : Rat) = k := by
  have h : ¬ ((k : Rat) < 0) := not_lt.mpr (Nat.cast_nonneg k)
  simp only [positiveSize, if_neg h]
  have : ((k : Rat)).ceil = (k : Int) := by
    have e : ((k : Rat)) = (((k : Int)) : Rat) := by norm_cast
    rw [e, Rat.ceil_intCast]
  rw [this]; rfl

theorem limits_iff (ch : Chars) (n : Nat) (h : WholeLimits ch) :
    (aboveMin ch n && belowMax ch n) = true ↔ InLimits ch (n : Rat) := by
  obtain ⟨h1, h2⟩ := h
  simp only [aboveMin, belowMax, InLimits, Bool.and_eq_true]
  constructor
  · rintro ⟨a, b⟩
    refine ⟨?_, ?_⟩
    · intro m hm
      obtain ⟨k, rfl⟩ := h1 m hm
      rw [hm] at a
      simp only [positiveSize_nat, Bool.not_eq_true', decide_eq_false_iff_not, Nat.not_lt] at a
      exact_mod_cast a
    · intro m hm
      obtain ⟨k, rfl⟩ := h2 m hm
      rw [hm] at b
      simp only [positiveSize_nat, Bool.not_eq_true', decide_eq_false_iff_not, Nat.not_lt] at b
      exact_mod_cast b
  · rintro ⟨a, b⟩
    refine ⟨?_, ?_⟩
    · cases hm : ch.minLimit with
      | none => rfl
      | some m =>
        obtain ⟨k, rfl⟩ := h1 m hm
        simp only [positiveSize_nat, Bool.not_eq_true', decide_eq_false_iff_not, Nat.not_lt]
        exact_mod_cast a _ hm
    · cases hm : ch.maxLimit with
      | none => rfl
      | some m =>
        obtain ⟨k, rfl⟩ := h2 m hm
        simp only [positiveSize_nat, Bool.not_eq_true', decide_eq_false_iff_not, Nat.not_lt]
        exact_mod_cast b _ hm

theorem decimalInLimits_iff (ch : Chars) (x : Rat) : decimalInLimits ch x = true ↔ InLimits ch x := by
  simp only [decimalInLimits, InLimits, Bool.and_eq_true]
  constructor
  · rintro ⟨a, b⟩
    refine ⟨fun m hm => ?_, fun m hm => ?_⟩
    · rw [hm] at a; simpa using a
    · rw [hm] at b; simpa using b
  · rintro ⟨a, b⟩
    refine ⟨?_, ?_⟩
    · cases hm : ch.minLimit with
      | none => rfl
      | some m => simpa using a m hm
    · cases hm : ch.maxLimit with
      | none => rfl
      | some m => simpa using b m hm

/-! ### Time stamps -/

theorem twoDigits_iff (lo hi : Nat) (a b : Char) : twoDigits lo hi a b = true ↔ TwoDigits lo hi [a, b] := by
  simp only [twoDigits, TwoDigits, Bool.and_eq_true, decide_eq_true_eq, natOf_eq, isDigit_iff, Digits,
    List.mem_cons, List.not_mem_nil, or_false, List.length_cons, List.length_nil, forall_eq_or_imp, forall_eq,
    true_and, and_assoc]

theorem len2 {v : Str} (h : v.length = 2) : ∃ a b, v = [a, b] := by
  match v, h with
  | [a, b], _ => exact ⟨a, b, rfl⟩

theorem len4 {v : Str} (h : v.length = 4) : ∃ a b c d, v = [a, b, c, d] := by
  match v, h with
  | [a, b, c, d], _ => exact ⟨a, b, c, d, rfl⟩

theorem digits2 (a b : Char) : Digits [a, b] ↔ isDigit a = true ∧ isDigit b = true := by
  simp only [Digits, List.mem_cons, List.not_mem_nil, or_false, forall_eq_or_imp, forall_eq, isDigit_iff]

/-- The zone of a time stamp. -/
def Zone (zone : Str) : Prop :=
  zone = ['Z'] ∨ ∃ c hh mm, (c = '+' ∨ c = '-') ∧ hh.length = 2 ∧ Digits hh ∧ mm.length = 2 ∧ Digits mm ∧
    (zone = c :: hh ++ mm ∨ zone = c :: hh ++ ':' :: mm)

theorem zone_iff (z : Str) : zoneMatch z = true ↔ Zone z := by
  constructor
  · intro h
    unfold zoneMatch at h
    split at h
    · exact .inl rfl
    · rename_i s a b c d
      simp only [Bool.and_eq_true, Bool.or_eq_true, beq_iff_eq, and_assoc] at h
      obtain ⟨h1, h2, h3, h4, h5⟩ := h
      exact .inr ⟨s, [a, b], [c, d], h1, rfl, (digits2 _ _).mpr ⟨h2, h3⟩, rfl, (digits2 _ _).mpr ⟨h4, h5⟩, .inl rfl⟩
    · rename_i s a b c d
      simp only [Bool.and_eq_true, Bool.or_eq_true, beq_iff_eq, and_assoc] at h
      obtain ⟨h1, h2, h3, h4, h5⟩ := h
      exact .inr ⟨s, [a, b], [c, d], h1, rfl, (digits2 _ _).mpr ⟨h2, h3⟩, rfl, (digits2 _ _).mpr ⟨h4, h5⟩, .inr rfl⟩
    · simp at h
  · rintro (rfl | ⟨c, hh, mm, hc, l1, d1, l2, d2, h⟩)
    · rfl
    · obtain ⟨a, b, rfl⟩ := len2 l1
      obtain ⟨x, y, rfl⟩ := len2 l2
      obtain ⟨h1, h2⟩ := (digits2 _ _).mp d1
      obtain ⟨h3, h4⟩ := (digits2 _ _).mp d2
      rcases h with rfl | rfl
      · rcases hc with rfl | rfl <;> simp [zoneMatch, h1, h2, h3, h4]
      · rcases hc with rfl | rfl <;> simp [zoneMatch, h1, h2, h3, h4]

theorem Zone.no_point {z : Str} (h : Zone z) (r : Str) : z ≠ '.' :: r := by
  rcases h with rfl | ⟨c, hh, mm, hc, _, _, _, _, h⟩
  · simp
  · rcases h with rfl | rfl <;> rcases hc with rfl | rfl <;> simp

theorem fraction_iff (r : Str) : fractionMatch r = true ↔
    ∃ frac zone, r = frac ++ zone ∧ (frac = [] ∨ ∃ f, frac = '.' :: f ∧ Digits f ∧ f.length ≤ 3) ∧ Zone zone := by
  constructor
  · intro h
    unfold fractionMatch at h
    split at h
    · rename_i r
      simp only [Bool.or_eq_true, zone_iff] at h
      rcases h with h | h
      · exact ⟨['.'], r, rfl, .inr ⟨[], rfl, by simp [Digits], by simp⟩, h⟩
      · cases r with
        | nil => simp at h
        | cons a r1 =>
          simp only [Bool.and_eq_true, Bool.or_eq_true, zone_iff] at h
          obtain ⟨ha, h | h⟩ := h
          · exact ⟨['.', a], r1, rfl, .inr ⟨[a], rfl, by simpa [Digits] using (isDigit_iff a).mp ha, by simp⟩, h⟩
          · cases r1 with
            | nil => simp at h
            | cons b r2 =>
              simp only [Bool.and_eq_true, Bool.or_eq_true, zone_iff] at h
              obtain ⟨hb, h | h⟩ := h
              · exact ⟨['.', a, b], r2, rfl, .inr ⟨[a, b], rfl, (digits2 _ _).mpr ⟨ha, hb⟩, by simp⟩, h⟩
              · cases r2 with
                | nil => simp at h
                | cons c r3 =>
                  simp only [Bool.and_eq_true, zone_iff] at h
                  refine ⟨['.', a, b, c], r3, rfl, .inr ⟨[a, b, c], rfl, ?_, by simp⟩, h.2⟩
                  intro x hx
                  simp only [List.mem_cons, List.not_mem_nil, or_false] at hx
                  rcases hx with rfl | rfl | rfl
                  · exact (isDigit_iff _).mp ha
                  · exact (isDigit_iff _).mp hb
                  · exact (isDigit_iff _).mp h.1
    · exact ⟨[], r, rfl, .inl rfl, (zone_iff r).mp h⟩
  · rintro ⟨frac, zone, rfl, hf, hz⟩
    have hz' := (zone_iff zone).mpr hz
    rcases hf with rfl | ⟨f, rfl, hd, hl⟩
    · rw [List.nil_append]
      unfold fractionMatch
      split
      · exact absurd rfl (hz.no_point _)
      · exact hz'
    · match f, hl with
      | [], _ => simp [fractionMatch, hz']
      | [a], _ =>
        have ha := (isDigit_iff a).mpr (hd a (by simp))
        simp [fractionMatch, ha, hz']
      | [a, b], _ =>
        have ha := (isDigit_iff a).mpr (hd a (by simp))
        have hb := (isDigit_iff b).mpr (hd b (by simp))
        simp [fractionMatch, ha, hb, hz']
      | [a, b, c], _ =>
        have ha := (isDigit_iff a).mpr (hd a (by simp))
        have hb := (isDigit_iff b).mpr (hd b (by simp))
        have hc := (isDigit_iff c).mpr (hd c (by simp))
        simp [fractionMatch, ha, hb, hc, hz']

theorem dateTime_iff (v : Str) : isDateTime v = true ↔ IsTimestamp v := by
  constructor
  · intro h
    unfold isDateTime at h
    split at h
    · rename_i y1 y2 y3 y4 m1 m2 d1 d2 h1 h2 n1 n2 s1 s2 rest
      simp only [Bool.and_eq_true, twoDigits_iff, fraction_iff, and_assoc] at h
      obtain ⟨a1, a2, a3, a4, hm, hd, hh, hn, hs, frac, zone, rfl, hf, hz⟩ := h
      refine ⟨[y1, y2, y3, y4], [m1, m2], [d1, d2], [h1, h2], [n1, n2], [s1, s2], frac, zone, by simp, rfl, ?_,
        hm, hd, hh, hn, hs, hf, hz⟩
      intro x hx
      simp only [List.mem_cons, List.not_mem_nil, or_false] at hx
      rcases hx with rfl | rfl | rfl | rfl
      · exact (isDigit_iff _).mp a1
      · exact (isDigit_iff _).mp a2
      · exact (isDigit_iff _).mp a3
      · exact (isDigit_iff _).mp a4
    · simp at h
  · rintro ⟨y, m, d, h, n, s, frac, zone, rfl, ly, dy, hm, hd, hh, hn, hs, hf, hz⟩
    obtain ⟨y1, y2, y3, y4, rfl⟩ := len4 ly
    obtain ⟨m1, m2, rfl⟩ := len2 hm.1
    obtain ⟨d1, d2, rfl⟩ := len2 hd.1
    obtain ⟨h1, h2, rfl⟩ := len2 hh.1
    obtain ⟨n1, n2, rfl⟩ := len2 hn.1
    obtain ⟨s1, s2, rfl⟩ := len2 hs.1
    have hfr : fractionMatch (frac ++ zone) = true := (fraction_iff _).mpr ⟨frac, zone, rfl, hf, hz⟩
    have g := fun x hx => (isDigit_iff x).mpr (dy x hx)
    simp only [isDateTime, List.cons_append, List.nil_append, Bool.and_eq_true, twoDigits_iff]
    exact ⟨⟨⟨⟨⟨⟨⟨⟨⟨g _ (by simp), g _ (by simp)⟩, g _ (by simp)⟩, g _ (by simp)⟩, hm⟩, hd⟩, hh⟩, hn⟩, hs⟩, hfr⟩

end Verif.DM
