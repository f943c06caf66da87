import Verif.Strings.Model
/-
Theorems about bounded and case-insensitive strings (C44, C45).
-/
set_option linter.constructorNameAsVariable false

namespace Verif.Str

/-! ## C44: bounded strings -/

/-- C44: a string never holds more bytes than its bound, whatever is done with it. -/
theorem C44_bound (L : Nat) (ops : List Op) : (run L ops).length ≤ L := by
  have key : ∀ (ops : List Op) (s : Bytes), s.length ≤ L → (ops.foldl (step L) s).length ≤ L := by
    intro ops
    induction ops with
    | nil => intro s h; exact h
    | cons o r ih =>
      intro s h
      apply ih
      cases o with
      | set d t | assign d t =>
        simp only [step, set]
        split
        · cases t
          · exact h
          · simp; omega
        · simp; omega
  exact key ops [] (Nat.zero_le _)

/-- C44: a text that fits is kept as it is; one that does not is refused, the object keeping what it had, or cut to its first bytes, as
many as fit. -/
theorem C44_contents (L : Nat) (s d : Bytes) :
    (d.length ≤ L → ∀ t, step L s (.set d t) = d) ∧
    (L < d.length → step L s (.set d .throw) = s ∧ set L d .throw = none) ∧
    (L < d.length → ∃ r, d = step L s (.set d .truncate) ++ r ∧ (step L s (.set d .truncate)).length = L) := by
  refine ⟨?_, ?_, ?_⟩
  · intro h t
    have : ¬ d.length > L := by omega
    simp [step, set, this]
  · intro h; simp [step, set, h]
  · intro h
    refine ⟨d.drop L, ?_, ?_⟩
    · simp [step, set, h]
    · simp [step, set, h]; omega

/-- Non-vacuity of `C44_bound` and `C44_contents`. -/
example : run 3 [.set [1, 2] .throw, .set [1, 2, 3, 4] .throw] = [1, 2] ∧ run 3 [.set [1, 2, 3, 4] .truncate] = [1, 2, 3] := by decide

/-- Texts in UTF-8 (without the exclusion of overlong forms and surrogates). -/
inductive Utf8 : Bytes → Prop
  | nil : Utf8 []
  | one {b : UInt8} {r} : b ≤ 0x7f → Utf8 r → Utf8 (b :: r)
  | two {a b : UInt8} {r} : 0xc2 ≤ a → a ≤ 0xdf → 0x80 ≤ b → b ≤ 0xbf → Utf8 r → Utf8 (a :: b :: r)
  | three {a b c : UInt8} {r} : 0xe0 ≤ a → a ≤ 0xef → 0x80 ≤ b → b ≤ 0xbf → 0x80 ≤ c → c ≤ 0xbf → Utf8 r → Utf8 (a :: b :: c :: r)
  | four {a b c d : UInt8} {r} : 0xf0 ≤ a → a ≤ 0xf4 → 0x80 ≤ b → b ≤ 0xbf → 0x80 ≤ c → c ≤ 0xbf → 0x80 ≤ d → d ≤ 0xbf → Utf8 r →
      Utf8 (a :: b :: c :: d :: r)

theorem utf8_cons (l r : Bytes) (hl : l = 0x61 :: r) (h : Utf8 l) : Utf8 r := by
  cases h with
  | nil => simp at hl
  | one _ h => injection hl with _ hl; exact hl ▸ h
  | two h => injection hl with hl _; subst hl; exact absurd h (by decide)
  | three h => injection hl with hl _; subst hl; exact absurd h (by decide)
  | four h => injection hl with hl _; subst hl; exact absurd h (by decide)

theorem utf8_ascii (n : Nat) (r : Bytes) : Utf8 (List.replicate n 0x61 ++ r) ↔ Utf8 r := by
  induction n with
  | zero => simp
  | succ n ih =>
    rw [List.replicate_succ, List.cons_append]
    constructor
    · intro h
      exact ih.mp (utf8_cons _ _ rfl h)
    · intro h; exact .one (by decide) (ih.mpr h)

/-- C44 violated: a text that is cut may end in the middle of a character, for every bound; the JSON library then throws when the message with
it (the details of a SecurityEventNotification) is written. -/
theorem C44_utf8_violated (L : Nat) : ∃ d : Bytes, Utf8 d ∧ ∃ s, set (L + 1) d .truncate = some s ∧ ¬ Utf8 s := by
  refine ⟨List.replicate L 0x61 ++ [0xc3, 0xa9], (utf8_ascii _ _).mpr (.two (by decide) (by decide) (by decide) (by decide) .nil),
    List.replicate L 0x61 ++ [0xc3], ?_, ?_⟩
  · have : (List.replicate L (0x61 : UInt8) ++ [0xc3, 0xa9]).length > L + 1 := by simp
    simp only [set, this, if_true]
    rw [List.take_append]
    simp
  · rw [utf8_ascii]
    intro h
    cases h with
    | one h => exact absurd h (by decide)

/-- C44 violated: a CiString accepts characters that are not printable ASCII, although its description excludes them. -/
theorem C44_printable_violated : ∃ d : Bytes, (∃ b ∈ d, b < 0x20 ∧ b ≠ 0x0a) ∧ set 20 d .throw = some d :=
  ⟨[0x41, 0x07], ⟨0x07, by decide, by decide⟩, rfl⟩

/-! ## C45: case-insensitive comparison -/

/-- The same character, or the same letter. -/
def SameChar (a b : UInt8) : Prop := a = b ∨ (0x61 ≤ a ∧ a ≤ 0x7a ∧ a = b + 0x20) ∨ (0x61 ≤ b ∧ b ≤ 0x7a ∧ b = a + 0x20)

/-- The same text but for the case of letters. -/
def SameText (l r : Bytes) : Prop := l.length = r.length ∧ ∀ (i : Nat) (a b : UInt8), l[i]? = some a → r[i]? = some b → SameChar a b

instance (a b : UInt8) : Decidable (SameChar a b) := by unfold SameChar; infer_instance

theorem up_toNat (a : UInt8) : (up a).toNat = if 97 ≤ a.toNat ∧ a.toNat ≤ 122 then a.toNat - 32 else a.toNat := by
  have h : ∀ x : Fin 256, (up (UInt8.ofNat x)).toNat = if 97 ≤ x.val ∧ x.val ≤ 122 then x.val - 32 else x.val := by decide +kernel
  have := h ⟨a.toNat, a.toNat_lt⟩
  simp only [UInt8.ofNat_toNat] at this
  exact this

theorem up_eq (a b : UInt8) : up a = up b ↔ SameChar a b := by
  rw [← UInt8.toNat_inj, up_toNat, up_toNat]
  simp only [SameChar, ← UInt8.toNat_inj, UInt8.le_iff_toNat_le, UInt8.toNat_add]
  have h1 := a.toNat_lt
  have h2 := b.toNat_lt
  have e1 : (0x61 : UInt8).toNat = 97 := rfl
  have e2 : (0x7a : UInt8).toNat = 122 := rfl
  have e3 : (0x20 : UInt8).toNat = 32 := rfl
  rw [e1, e2, e3]
  split <;> split <;> omega

theorem iequals_iff (l r : Bytes) : iequals l r = true ↔ l.map up = r.map up := by
  induction l generalizing r with
  | nil => cases r <;> simp [iequals]
  | cons a l ih =>
    cases r with
    | nil => simp [iequals]
    | cons b r => simp [iequals, ih]

theorem sameText_iff (l r : Bytes) : SameText l r ↔ l.map up = r.map up := by
  induction l generalizing r with
  | nil => cases r <;> simp [SameText]
  | cons a l ih =>
    cases r with
    | nil => simp [SameText]
    | cons b r =>
      simp only [List.map_cons, List.cons.injEq, up_eq, ← ih]
      constructor
      · rintro ⟨h1, h2⟩
        refine ⟨h2 0 a b rfl rfl, by simpa using h1, ?_⟩
        intro i x y hx hy
        exact h2 (i + 1) x y (by simpa using hx) (by simpa using hy)
      · rintro ⟨h1, h2, h3⟩
        refine ⟨by simp [h2], ?_⟩
        intro i x y hx hy
        cases i with
        | zero => simp at hx hy; subst hx hy; exact h1
        | succ i => exact h3 i x y (by simpa using hx) (by simpa using hy)

/-- C45: two CiStrings are equal exactly if they are the same text but for the case of letters; that is an equivalence. -/
theorem C45_equality_partial : (∀ l r, eq l r = true ↔ SameText l r) ∧ (∀ l, eq l l = true) ∧ (∀ l r, eq l r = true → eq r l = true) ∧
    (∀ l r s, eq l r = true → eq r s = true → eq l s = true) := by
  refine ⟨fun l r => ?_, fun l => ?_, fun l r h => ?_, fun l r s h1 h2 => ?_⟩
  · rw [eq, iequals_iff, sameText_iff]
  · rw [eq, iequals_iff]
  · rw [eq, iequals_iff] at *; exact h.symm
  · rw [eq, iequals_iff] at *; exact h1.trans h2

/-- C45: `<` orders the exact spellings: strictly and totally. -/
theorem C45_order_partial : (∀ l, lt l l = false) ∧ (∀ l r s, lt l r = true → lt r s = true → lt l s = true) ∧
    (∀ l r, (lt l r = false ∧ lt r l = false) ↔ l = r) := by
  have irr : ∀ l, lt l l = false := by
    intro l
    induction l with
    | nil => rfl
    | cons a l ih => simp [lt, ih]
  have tot : ∀ l r, lt l r = false → lt r l = false → l = r := by
    intro l
    induction l with
    | nil => intro r h1 h2; cases r with
      | nil => rfl
      | cons b r => simp [lt] at h1
    | cons a l ih =>
      intro r h1 h2
      cases r with
      | nil => simp [lt] at h2
      | cons b r =>
        simp only [lt] at h1 h2
        by_cases hab : a < b
        · simp [hab] at h1
        · by_cases hba : b < a
          · simp [hba] at h2
          · simp only [hab, hba, if_false] at h1 h2
            have : a = b := by
              have h3 : ¬ a.toNat < b.toNat := fun h => hab (UInt8.lt_iff_toNat_lt.mpr h)
              have h4 : ¬ b.toNat < a.toNat := fun h => hba (UInt8.lt_iff_toNat_lt.mpr h)
              exact UInt8.toNat_inj.mp (by omega)
            rw [this, ih r h1 h2]
  refine ⟨irr, ?_, fun l r => ⟨fun h => tot l r h.1 h.2, fun h => by subst h; exact ⟨irr l, irr l⟩⟩⟩
  intro l
  induction l with
  | nil =>
    intro r s h1 h2
    cases s with
    | nil => cases r <;> simp [lt] at h2
    | cons c s => rfl
  | cons a l ih =>
    intro r s h1 h2
    cases r with
    | nil => simp [lt] at h1
    | cons b r =>
      cases s with
      | nil => simp [lt] at h2
      | cons c s =>
        simp only [lt, UInt8.lt_iff_toNat_lt] at *
        by_cases x1 : a.toNat < b.toNat
        · by_cases x2 : b.toNat < c.toNat
          · rw [if_pos (by omega)]
          · rw [if_neg x2] at h2
            by_cases x3 : c.toNat < b.toNat
            · simp [x3] at h2
            · rw [if_pos (by omega)]
        · rw [if_neg x1] at h1
          by_cases x2 : b.toNat < a.toNat
          · simp [x2] at h1
          · rw [if_neg x2] at h1
            by_cases x3 : b.toNat < c.toNat
            · rw [if_pos (by omega)]
            · rw [if_neg x3] at h2
              by_cases x4 : c.toNat < b.toNat
              · simp [x4] at h2
              · rw [if_neg x4] at h2
                rw [if_neg (by omega), if_neg (by omega)]
                exact ih r s h1 h2

/-- Non-vacuity of `C45_equality_partial` and `C45_order_partial`: "Ab1" and "aB1" are equal, "Ab1" and "Ac" are not and "Ab1" is less. -/
example : eq [0x41, 0x62, 0x31] [0x61, 0x42, 0x31] = true ∧ eq [0x41, 0x62, 0x31] [0x41, 0x63] = false ∧
    lt [0x41, 0x62, 0x31] [0x41, 0x63] = true ∧ eq [0x5b] [0x7b] = false := by decide

/-- C45 violated: `!=` is not the opposite of `==`: it is true of texts that are equal but for the case, for every text with a letter. -/
theorem C45_ne_violated (l r : Bytes) (a : UInt8) (ha : 0x61 ≤ a ∧ a ≤ 0x7a) :
    eq (l ++ a :: r) (l ++ (a - 0x20) :: r) = true ∧ ne (l ++ a :: r) (l ++ (a - 0x20) :: r) = true := by
  have h : ∀ x : Fin 256, (0x61 ≤ UInt8.ofNat x ∧ UInt8.ofNat x ≤ 0x7a) →
      up (UInt8.ofNat x) = up (UInt8.ofNat x - 0x20) ∧ UInt8.ofNat x ≠ UInt8.ofNat x - 0x20 := by decide +kernel
  have h' := h ⟨a.toNat, a.toNat_lt⟩ (by simpa using ha)
  simp only [UInt8.ofNat_toNat] at h'
  constructor
  · rw [eq, iequals_iff]; simp [h'.1]
  · simp only [ne, Bool.not_eq_true', beq_eq_false_iff_ne]
    intro hh
    have := List.append_cancel_left hh
    injection this with h1
    exact h'.2 h1

/-- C45 violated: texts that are equal are ordered by `<`, so that a map can hold both and does not find the one under the other. -/
theorem C45_map_violated : ∃ k k' : Bytes, eq k k' = true ∧ lt k k' = true ∧ find [(k, 1), (k', 2)] k = some 1 ∧
    find [(k, 1), (k', 2)] k' = some 2 ∧ find [(k, 1)] k' = none :=
  ⟨[0x45, 0x56], [0x65, 0x56], by decide⟩

/-- C45: in a map, exactly the same spelling is found. -/
theorem C45_map_partial (m : List (Bytes × Nat)) (k : Bytes) (n : Nat) (hm : m.Pairwise (fun a b => a.1 ≠ b.1)) :
    find m k = some n ↔ (k, n) ∈ m := by
  have hb : ∀ x : Bytes, (!(lt x k) && !(lt k x)) = true ↔ x = k := by
    intro x
    rw [← C45_order_partial.2.2 x k]
    simp
  unfold find
  induction m with
  | nil => simp
  | cons p m ih =>
    simp only [List.find?_cons]
    by_cases h : p.1 = k
    · have h1 := (hb p.1).mpr h
      rw [h1]
      simp only [Option.map_some, Option.some.injEq, List.mem_cons]
      constructor
      · intro hh; left; rw [← h, ← hh]
      · rintro (hh | hh)
        · rw [← hh]
        · exact absurd h ((List.pairwise_cons.mp hm).1 _ hh)
    · have h1 : (!(lt p.1 k) && !(lt k p.1)) = false := by
        cases hc : (!(lt p.1 k) && !(lt k p.1)) with
        | false => rfl
        | true => exact absurd ((hb _).mp hc) h
      rw [h1, List.mem_cons]
      simp only
      have ih' := ih (List.pairwise_cons.mp hm).2
      constructor
      · intro hh; exact .inr (ih'.mp hh)
      · rintro (hh | hh)
        · rw [← hh] at h; exact absurd rfl h
        · exact ih'.mpr hh

end Verif.Str
