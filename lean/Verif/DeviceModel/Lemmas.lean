import Verif.DeviceModel.Text
/-
Lemmas about reading and writing variables.
-/
set_option linter.constructorNameAsVariable false

namespace Verif.DM

theorem validate_integer (ch : Chars) (z : Bool) (v : Str) (hw : WholeLimits ch)
    (hr : ∀ n, IsIntegerText v n → 0 ≤ n ∧ n < 2 ^ 31) (ht : ch.dataType = .integer) :
    validateValue ch v z = some true ↔ ∃ n : Int, IsIntegerText v n ∧ ((z = true ∧ n = 0) ∨ InLimits ch n) := by
  simp only [validateValue, ht]
  by_cases hi : isInteger v = true
  · simp only [hi, Bool.not_true, Bool.false_eq_true, if_false]
    cases hs : stoi v with
    | none =>
      simp only [reduceCtorEq, false_iff]
      rintro ⟨n, hn, _⟩
      have := hr n hn
      have h2 := ((integer_iff v n).mpr ⟨hn, by omega, by omega⟩).2
      rw [hs] at h2; simp at h2
    | some i =>
      have ht := ((integer_iff v i).mp ⟨hi, hs⟩).1
      have h0 := hr i ht
      have hsz : toSizeT i = i.toNat := by simp [toSizeT, h0.1]
      have hcast : ((i.toNat : Nat) : Rat) = (i : Rat) := by
        have : ((i.toNat : Nat) : Int) = i := Int.toNat_of_nonneg h0.1
        exact_mod_cast congrArg (fun k : Int => (k : Rat)) this
      simp only [hsz]
      constructor
      · intro h
        refine ⟨i, ht, ?_⟩
        split at h
        · rename_i hz
          simp only [Bool.and_eq_true, beq_iff_eq] at hz
          exact .inl hz
        · injection h with h
          right; rw [← hcast]; exact (limits_iff ch _ hw).mp h
      · rintro ⟨n, hn, h⟩
        have e : n = i := hn.unique ht
        subst e
        rcases h with ⟨rfl, rfl⟩ | h
        · simp
        · rw [← hcast] at h
          have := (limits_iff ch _ hw).mpr h
          split
          · rfl
          · rw [this]
  · simp only [hi, Bool.not_false, if_true, Option.some.injEq, Bool.false_eq_true, false_iff]
    rintro ⟨n, hn, _⟩
    exact hi (isInteger_of_text hn)

theorem validate_decimal (ch : Chars) (z : Bool) (v : Str)
    (hr : ∀ x, IsDecimalText v x → x < floatBound ∧ -x < floatBound) (ht : ch.dataType = .decimal) :
    validateValue ch v z = some true ↔ ∃ x, IsDecimalText v x ∧ ((z = true ∧ x = 0) ∨ InLimits ch x) := by
  simp only [validateValue, ht]
  have ok : ∀ {x}, IsDecimalText v x → stof v = some x := by
    intro x hx
    obtain ⟨h1, h2⟩ := hr x hx
    exact ((decimal_iff v x).mpr ⟨hx, by rintro (h | h) <;> linarith⟩).2
  by_cases hi : isDecimal v = true
  · simp only [hi, Bool.not_true, Bool.false_eq_true, if_false]
    cases hs : stof v with
    | none =>
      simp only [reduceCtorEq, false_iff]
      rintro ⟨x, hx, _⟩
      rw [ok hx] at hs; simp at hs
    | some i =>
      have ht := ((decimal_iff v i).mp ⟨hi, hs⟩).1
      constructor
      · intro h
        refine ⟨i, ht, ?_⟩
        simp only at h
        split at h
        · rename_i hz
          simp only [Bool.and_eq_true, beq_iff_eq] at hz
          exact .inl hz
        · injection h with h
          right; exact (decimalInLimits_iff ch _).mp h
      · rintro ⟨x, hx, h⟩
        have e : i = x := Option.some.inj (hs.symm.trans (ok hx))
        subst e
        rcases h with ⟨rfl, rfl⟩ | h
        · simp
        · have := (decimalInLimits_iff ch _).mpr h
          simp only
          split
          · rfl
          · rw [this]
  · simp only [hi, Bool.not_false, if_true, Option.some.injEq, Bool.false_eq_true, false_iff]
    rintro ⟨x, hx, _⟩
    exact hi (isDecimal_of_text hx)

/-- Validation decides what the specification admits. -/
theorem validate_iff (ch : Chars) (z : Bool) (v : Str) (hj : Judged ch v) :
    validateValue ch v z = some true ↔ Admits ch (z = true) v := by
  cases ht : ch.dataType with
  | string =>
    simp only [Judged, ht] at hj
    simp only [validateValue, Admits, ht, Option.some.injEq]
    exact limits_iff ch _ hj
  | integer =>
    simp only [Judged, ht] at hj
    have := validate_integer ch z v hj.1 hj.2 ht
    simpa only [Admits, ht] using this
  | decimal =>
    simp only [Judged, ht] at hj
    have := validate_decimal ch z v hj ht
    simpa only [Admits, ht] using this
  | dateTime =>
    simp only [validateValue, Admits, ht, Option.some.injEq]
    exact dateTime_iff v
  | boolean => simp [validateValue, Admits, ht]
  | optionList =>
    simp only [validateValue, Admits, ht]
    cases hl : ch.valuesList with
    | none => simp
    | some l => simp [mem_split]
  | sequenceList =>
    simp only [validateValue, Admits, ht]
    cases hl : ch.valuesList with
    | none => simp
    | some l => simp [mem_split]
  | memberList =>
    simp only [validateValue, Admits, ht]
    cases hl : ch.valuesList with
    | none => simp
    | some l => simp [mem_split]

/-! ### Looking up variables -/

theorem find_some {dm : DM} {c : Comp} {v : Vbl} {e : Entry} (h : find dm c v = some e) :
    e ∈ dm ∧ e.comp = c ∧ e.var = v := by
  have h1 := List.find?_some h
  simp only [Bool.and_eq_true, beq_iff_eq] at h1
  exact ⟨List.mem_of_find?_eq_some h, h1⟩

theorem find_none {dm : DM} {c : Comp} {v : Vbl} (h : find dm c v = none) :
    ∀ e ∈ dm, ¬ (e.comp = c ∧ e.var = v) := by
  intro e he hcv
  have := List.find?_eq_none.mp h e he
  simp [hcv.1, hcv.2] at this

theorem pairwise_unique {α : Type} {R : α → α → Prop} {l : List α} (h : l.Pairwise (fun x y => ¬ R x y))
    (hs : ∀ x y, R x y → R y x) {x y : α} (hx : x ∈ l) (hy : y ∈ l) (hr : R x y) : x = y := by
  induction l with
  | nil => simp at hx
  | cons a l ih =>
    rw [List.pairwise_cons] at h
    rcases List.mem_cons.mp hx with rfl | hx <;> rcases List.mem_cons.mp hy with rfl | hy
    · rfl
    · exact absurd hr (h.1 y hy)
    · rename_i hx'; exact absurd (hs _ _ hr) (h.1 x hx')
    · exact ih h.2 hx hy

theorem WellFormed.find {dm : DM} (h : WellFormed dm) {e : Entry} (he : e ∈ dm) :
    DM.find dm e.comp e.var = some e := by
  cases hf : DM.find dm e.comp e.var with
  | none => exact absurd ⟨rfl, rfl⟩ (find_none hf e he)
  | some f =>
    obtain ⟨h1, h2, h3⟩ := find_some hf
    have := pairwise_unique h.vars (fun x y hr => ⟨hr.1.symm, hr.2.symm⟩) h1 he ⟨h2, h3⟩
    rw [this]

theorem attrOf_some {e : Entry} {a : AttrType} {x : Attr} (h : attrOf e a = some x) :
    x ∈ e.attrs ∧ x.type = a := by
  have h1 := List.find?_some h
  simp only [beq_iff_eq] at h1
  exact ⟨List.mem_of_find?_eq_some h, h1⟩

theorem attrOf_none {e : Entry} {a : AttrType} (h : attrOf e a = none) : ∀ x ∈ e.attrs, x.type ≠ a := by
  intro x hx ht
  have := List.find?_eq_none.mp h x hx
  simp [ht] at this

theorem WellFormed.attr {dm : DM} (h : WellFormed dm) {e : Entry} (he : e ∈ dm) {x : Attr} (hx : x ∈ e.attrs) :
    attrOf e x.type = some x := by
  cases hf : attrOf e x.type with
  | none => exact absurd rfl (attrOf_none hf x hx)
  | some y =>
    obtain ⟨h1, h2⟩ := attrOf_some hf
    have h3 : e.attrs.Pairwise (fun x y => ¬ x.type = y.type) := h.attrs e he
    have := pairwise_unique h3 (fun x y hr => hr.symm) h1 hx h2
    rw [this]

theorem hasComp_iff (dm : DM) (c : Comp) : hasComp dm c = true ↔ ∃ e ∈ dm, e.comp = c := by
  simp [hasComp]

/-! ### What is read -/

/-- The answers of `request_value_internal` one by one. -/
theorem requestValue_spec (dm : DM) (c : Comp) (v : Vbl) (a : AttrType) (w : Bool) (hwf : WellFormed dm) :
    let r := requestValue dm c v a w
    (r.1 = .unknownComponent ↔ ¬ ∃ e ∈ dm, e.comp = c) ∧
    (r.1 = .unknownVariable ↔ (∃ e ∈ dm, e.comp = c) ∧ ¬ ∃ e ∈ dm, e.comp = c ∧ e.var = v) ∧
    (r.1 = .notSupportedAttributeType ↔ (∃ e ∈ dm, e.comp = c ∧ e.var = v) ∧
      ¬ ∃ x, IsAttr dm c v a x ∧ x.value ≠ none) ∧
    (r.1 = .rejected ↔ w = false ∧ ∃ x, IsAttr dm c v a x ∧ x.value ≠ none ∧ x.mutability = some .writeOnly) ∧
    (∀ val, r.2 = some val ↔ r.1 = .accepted ∧ ∃ x, IsAttr dm c v a x ∧ x.value = some val) := by
  intro r
  by_cases hc : hasComp dm c = true
  · have hc' := (hasComp_iff dm c).mp hc
    cases hf : find dm c v with
    | none =>
      have hr : r = (.unknownVariable, none) := by simp [r, requestValue, hc, hf]
      have hn := find_none hf
      have hn' : ¬ ∃ e ∈ dm, e.comp = c ∧ e.var = v := by rintro ⟨e, he, h⟩; exact hn e he h
      have hna : ∀ x, ¬ IsAttr dm c v a x := by
        rintro x ⟨e, he, h1, h2, _⟩; exact hn e he ⟨h1, h2⟩
      simp only [hr]
      refine ⟨by simp [hc'], by simp [hc', hn'], ?_, ?_, ?_⟩
      · simp only [reduceCtorEq, false_iff]; rintro ⟨h, _⟩; exact hn' h
      · simp only [reduceCtorEq, false_iff]; rintro ⟨_, x, hx, _⟩; exact hna x hx
      · intro val; simp
    | some e =>
      obtain ⟨he, rfl, rfl⟩ := find_some hf
      have hex : ∃ e' ∈ dm, e'.comp = e.comp ∧ e'.var = e.var := ⟨e, he, rfl, rfl⟩
      -- the entry of an attribute is `e`
      have huniq : ∀ x, IsAttr dm e.comp e.var a x → x ∈ e.attrs ∧ x.type = a := by
        rintro x ⟨f, hf', h1, h2, h3, h4⟩
        have : f = e := pairwise_unique hwf.vars (fun x y hr => ⟨hr.1.symm, hr.2.symm⟩) hf' he ⟨h1, h2⟩
        subst this; exact ⟨h3, h4⟩
      cases ha : attrOf e a with
      | none =>
        have hr : r = (.notSupportedAttributeType, none) := by simp [r, requestValue, hc, hf, ha]
        have hna : ∀ x, ¬ IsAttr dm e.comp e.var a x := by
          intro x hx; obtain ⟨h1, h2⟩ := huniq x hx; exact attrOf_none ha x h1 h2
        simp only [hr]
        refine ⟨by simp [hc'], ?_, ?_, ?_, ?_⟩
        · simp only [reduceCtorEq, false_iff]; rintro ⟨_, h⟩; exact h hex
        · simp only [true_iff]; exact ⟨hex, by rintro ⟨x, hx, _⟩; exact hna x hx⟩
        · simp only [reduceCtorEq, false_iff]; rintro ⟨_, x, hx, _⟩; exact hna x hx
        · intro val; simp
      | some y =>
        obtain ⟨hy, hyt⟩ := attrOf_some ha
        have hattr : IsAttr dm e.comp e.var a y := ⟨e, he, rfl, rfl, hy, hyt⟩
        have hone : ∀ x, IsAttr dm e.comp e.var a x → x = y := by
          intro x hx
          obtain ⟨h1, h2⟩ := huniq x hx
          have h3 := hwf.attr he h1
          rw [h2, ha] at h3
          exact (Option.some.inj h3).symm
        cases hv : y.value with
        | none =>
          have hr : r = (.notSupportedAttributeType, none) := by simp [r, requestValue, hc, hf, ha, hv]
          simp only [hr]
          refine ⟨by simp [hc'], ?_, ?_, ?_, ?_⟩
          · simp only [reduceCtorEq, false_iff]; rintro ⟨_, h⟩; exact h hex
          · simp only [true_iff]; exact ⟨hex, by rintro ⟨x, hx, h⟩; rw [hone x hx] at h; exact h hv⟩
          · simp only [reduceCtorEq, false_iff]; rintro ⟨_, x, hx, h, _⟩; rw [hone x hx] at h; exact h hv
          · intro val; simp
        | some val =>
          by_cases hw : w = false ∧ y.mutability = some .writeOnly
          · have hr : r = (.rejected, none) := by simp [r, requestValue, hc, hf, ha, hv, hw]
            simp only [hr]
            refine ⟨by simp [hc'], ?_, ?_, ?_, ?_⟩
            · simp only [reduceCtorEq, false_iff]; rintro ⟨_, h⟩; exact h hex
            · simp only [reduceCtorEq, false_iff]; rintro ⟨_, h⟩; exact h ⟨y, hattr, by rw [hv]; simp⟩
            · simp only [true_iff]; exact ⟨hw.1, y, hattr, by rw [hv]; simp, hw.2⟩
            · intro val; simp
          · have hr : r = (.accepted, some val) := by
              simp only [r, requestValue, hc, hf, ha, hv, Bool.not_true, Bool.false_eq_true, if_false]
              rw [if_neg]
              simp only [Bool.and_eq_true, Bool.not_eq_true', beq_iff_eq]
              exact hw
            simp only [hr]
            refine ⟨by simp [hc'], ?_, ?_, ?_, ?_⟩
            · simp only [reduceCtorEq, false_iff]; rintro ⟨_, h⟩; exact h hex
            · simp only [reduceCtorEq, false_iff]; rintro ⟨_, h⟩; exact h ⟨y, hattr, by rw [hv]; simp⟩
            · simp only [reduceCtorEq, false_iff]; rintro ⟨h1, x, hx, _, h3⟩; rw [hone x hx] at h3; exact hw ⟨h1, h3⟩
            · intro u
              simp only [Option.some.injEq, true_and]
              constructor
              · rintro rfl; exact ⟨y, hattr, hv⟩
              · rintro ⟨x, hx, h⟩; rw [hone x hx, hv] at h; exact Option.some.inj h
  · have hr : r = (.unknownComponent, none) := by simp [r, requestValue, hc]
    have hc' : ¬ ∃ e ∈ dm, e.comp = c := fun h => hc ((hasComp_iff dm c).mpr h)
    have hn' : ¬ ∃ e ∈ dm, e.comp = c ∧ e.var = v := by rintro ⟨e, he, h, _⟩; exact hc' ⟨e, he, h⟩
    have hna : ∀ x, ¬ IsAttr dm c v a x := by
      rintro x ⟨e, he, h1, _⟩; exact hc' ⟨e, he, h1⟩
    simp only [hr]
    refine ⟨by simp [hc'], ?_, ?_, ?_, ?_⟩
    · simp only [reduceCtorEq, false_iff]; rintro ⟨h, _⟩; exact hc' h
    · simp only [reduceCtorEq, false_iff]; rintro ⟨h, _⟩; exact hn' h
    · simp only [reduceCtorEq, false_iff]; rintro ⟨_, x, hx, _⟩; exact hna x hx
    · intro val; simp

/-! ### What is written -/

theorem setAttr_type (a : AttrType) (val : Str) (x : Attr) : (setAttr a val x).type = x.type := by
  simp only [setAttr]; split <;> rfl

/-- The entry an update makes of an entry. -/
def storeEntry (c : Comp) (v : Vbl) (a : AttrType) (val : Str) (e : Entry) : Entry :=
  if e.comp == c && e.var == v then { e with attrs := e.attrs.map (setAttr a val) } else e

theorem store_eq (dm : DM) (c : Comp) (v : Vbl) (a : AttrType) (val : Str) :
    store dm c v a val = dm.map (storeEntry c v a val) := rfl

theorem storeEntry_comp (c : Comp) (v : Vbl) (a : AttrType) (val : Str) (e : Entry) :
    (storeEntry c v a val e).comp = e.comp ∧ (storeEntry c v a val e).var = e.var ∧
    (storeEntry c v a val e).chars = e.chars := by
  simp only [storeEntry]; split <;> exact ⟨rfl, rfl, rfl⟩

theorem storeEntry_attr {c : Comp} {v : Vbl} {a : AttrType} {val : Str} {e : Entry} {x : Attr} :
    x ∈ (storeEntry c v a val e).attrs ↔
      if e.comp = c ∧ e.var = v then ∃ y ∈ e.attrs, x = if y.type = a then { y with value := some val } else y
      else x ∈ e.attrs := by
  simp only [storeEntry]
  by_cases h : e.comp = c ∧ e.var = v
  · simp only [h, beq_self_eq_true, Bool.and_self, if_true, List.mem_map, and_self, setAttr, beq_iff_eq]
    constructor
    · rintro ⟨y, hy, rfl⟩; exact ⟨y, hy, rfl⟩
    · rintro ⟨y, hy, rfl⟩; exact ⟨y, hy, rfl⟩
  · have : (e.comp == c && e.var == v) = false := by
      simp only [Bool.and_eq_false_iff, beq_eq_false_iff_ne]
      by_cases h1 : e.comp = c
      · exact .inr (fun h2 => h ⟨h1, h2⟩)
      · exact .inl h1
    simp [h, this]

theorem store_isAttr_same (dm : DM) (c : Comp) (v : Vbl) (a : AttrType) (val : Str) (x : Attr) :
    IsAttr (store dm c v a val) c v a x ↔ ∃ y, IsAttr dm c v a y ∧ x = { y with value := some val } := by
  simp only [IsAttr, store_eq, List.mem_map]
  constructor
  · rintro ⟨_, ⟨e, he, rfl⟩, h1, h2, h3, h4⟩
    rw [(storeEntry_comp c v a val e).1] at h1
    rw [(storeEntry_comp c v a val e).2.1] at h2
    rw [storeEntry_attr, if_pos ⟨h1, h2⟩] at h3
    obtain ⟨y, hy, rfl⟩ := h3
    by_cases ht : y.type = a
    · exact ⟨y, ⟨e, he, h1, h2, hy, ht⟩, by simp [ht]⟩
    · simp [ht] at h4
  · rintro ⟨y, ⟨e, he, h1, h2, h3, h4⟩, rfl⟩
    refine ⟨_, ⟨e, he, rfl⟩, ?_, ?_, ?_, h4⟩
    · rw [(storeEntry_comp c v a val e).1]; exact h1
    · rw [(storeEntry_comp c v a val e).2.1]; exact h2
    · rw [storeEntry_attr, if_pos ⟨h1, h2⟩]; exact ⟨y, h3, by simp [h4]⟩

theorem store_isAttr_other (dm : DM) (c : Comp) (v : Vbl) (a : AttrType) (val : Str) (c' : Comp) (v' : Vbl)
    (a' : AttrType) (x : Attr) (h : ¬ (c' = c ∧ v' = v ∧ a' = a)) :
    IsAttr (store dm c v a val) c' v' a' x ↔ IsAttr dm c' v' a' x := by
  simp only [IsAttr, store_eq, List.mem_map]
  constructor
  · rintro ⟨_, ⟨e, he, rfl⟩, h1, h2, h3, h4⟩
    rw [(storeEntry_comp c v a val e).1] at h1
    rw [(storeEntry_comp c v a val e).2.1] at h2
    rw [storeEntry_attr] at h3
    by_cases hcv : e.comp = c ∧ e.var = v
    · rw [if_pos hcv] at h3
      obtain ⟨y, hy, rfl⟩ := h3
      by_cases ht : y.type = a
      · simp only [ht, if_true] at h4
        exact absurd ⟨h1.symm.trans hcv.1, h2.symm.trans hcv.2, h4.symm⟩ h
      · simp only [ht, if_false] at h4 ⊢
        exact ⟨e, he, h1, h2, hy, h4⟩
    · rw [if_neg hcv] at h3
      exact ⟨e, he, h1, h2, h3, h4⟩
  · rintro ⟨e, he, h1, h2, h3, h4⟩
    refine ⟨_, ⟨e, he, rfl⟩, ?_, ?_, ?_, h4⟩
    · rw [(storeEntry_comp c v a val e).1]; exact h1
    · rw [(storeEntry_comp c v a val e).2.1]; exact h2
    · rw [storeEntry_attr]
      by_cases hcv : e.comp = c ∧ e.var = v
      · rw [if_pos hcv]
        refine ⟨x, h3, ?_⟩
        rw [if_neg]
        rw [h4]; rintro rfl
        exact h ⟨h1.symm.trans hcv.1, h2.symm.trans hcv.2, rfl⟩
      · rw [if_neg hcv]; exact h3

theorem store_only (dm : DM) (c : Comp) (v : Vbl) (a : AttrType) (val : Str) :
    OnlyChanged dm (store dm c v a val) c v a val := by
  refine ⟨fun x => store_isAttr_same dm c v a val x,
    fun c' v' a' x h => store_isAttr_other dm c v a val c' v' a' x h, ?_⟩
  intro c' v' ch
  simp only [store_eq, List.mem_map]
  constructor
  · rintro ⟨_, ⟨e, he, rfl⟩, h1, h2, h3⟩
    obtain ⟨e1, e2, e3⟩ := storeEntry_comp c v a val e
    exact ⟨e, he, e1 ▸ h1, e2 ▸ h2, e3 ▸ h3⟩
  · rintro ⟨e, he, h1, h2, h3⟩
    obtain ⟨e1, e2, e3⟩ := storeEntry_comp c v a val e
    exact ⟨_, ⟨e, he, rfl⟩, e1.trans h1, e2.trans h2, e3.trans h3⟩

theorem store_wellFormed {dm : DM} (h : WellFormed dm) (c : Comp) (v : Vbl) (a : AttrType) (val : Str) :
    WellFormed (store dm c v a val) := by
  constructor
  · rw [store_eq, List.pairwise_map]
    apply h.vars.imp
    intro e f hef
    obtain ⟨e1, e2, _⟩ := storeEntry_comp c v a val e
    obtain ⟨f1, f2, _⟩ := storeEntry_comp c v a val f
    rw [e1, e2, f1, f2]; exact hef
  · intro e he
    rw [store_eq, List.mem_map] at he
    obtain ⟨f, hf, rfl⟩ := he
    have hp := h.attrs f hf
    simp only [storeEntry]
    split
    · rw [List.pairwise_map]
      apply hp.imp
      intro x y hxy
      rw [setAttr_type, setAttr_type]; exact hxy
    · exact hp

/-- `set_value` accepts exactly in this situation, and then stores the value. -/
theorem setValue_accepted (dm : DM) (c : Comp) (v : Vbl) (a : AttrType) (val : Str) (ro : Bool) :
    (setValue dm c v a val ro).1 = .accepted ↔
      ∃ e x m, find dm c v = some e ∧ validateValue e.chars val (allowZero c v) = some true ∧
        attrOf e a = some x ∧ x.mutability = some m ∧ (m = .readOnly → ro = true) := by
  have hc : ∀ e, find dm c v = some e → hasComp dm c = true := by
    intro e h; obtain ⟨h1, h2, _⟩ := find_some h; exact (hasComp_iff dm c).mpr ⟨e, h1, h2⟩
  simp only [setValue]
  constructor
  · intro h
    split at h
    · simp at h
    · split at h
      · simp at h
      · rename_i e he
        split at h
        · simp at h
        · simp at h
        · rename_i hv
          split at h
          · simp at h
          · rename_i x hx
            split at h
            · simp at h
            · rename_i m hm
              split at h
              · simp at h
              · rename_i hro
                refine ⟨e, x, m, he, hv, hx, hm, ?_⟩
                rintro rfl
                simpa using hro
  · rintro ⟨e, x, m, he, hv, hx, hm, hro⟩
    rw [hc e he]
    simp only [Bool.not_true, Bool.false_eq_true, if_false, he, hv, hx, hm]
    rw [if_neg]
    simp only [Bool.and_eq_true, beq_iff_eq, Bool.not_eq_true', not_and, Bool.not_eq_false]
    exact hro

theorem setValue_state (dm : DM) (c : Comp) (v : Vbl) (a : AttrType) (val : Str) (ro : Bool) :
    (setValue dm c v a val ro).2 =
      if (setValue dm c v a val ro).1 = .accepted then store dm c v a val else dm := by
  by_cases hc : hasComp dm c = true
  · cases hf : find dm c v with
    | none => simp [setValue, hc, hf]
    | some e =>
      rcases hv : validateValue e.chars val (allowZero c v) with _ | _ | _
      · simp [setValue, hc, hf, hv]
      · simp [setValue, hc, hf, hv]
      · cases ha : attrOf e a with
        | none => simp [setValue, hc, hf, hv, ha]
        | some x =>
          cases hm : x.mutability with
          | none => simp [setValue, hc, hf, hv, ha, hm]
          | some m =>
            by_cases hro : (m == Mut.readOnly && !ro) = true
            · simp [setValue, hc, hf, hv, ha, hm, hro]
            · simp [setValue, hc, hf, hv, ha, hm, hro]
  · simp [setValue, hc]

end Verif.DM
