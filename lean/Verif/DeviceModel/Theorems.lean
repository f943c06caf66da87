import Verif.DeviceModel.Lemmas
/-
Properties of the device model: which values are accepted (C36), what is disclosed (C37), reading and
writing (C72-C74), reports (C75, C76).
-/
set_option linter.constructorNameAsVariable false

namespace Verif.DM

/-! ### A device model for the examples -/

/-- An interval between 1 and 100. -/
def exInterval : Entry :=
  ⟨⟨"OCPPCommCtrlr".toList, none, none⟩, ⟨"HeartbeatInterval".toList, none⟩,
   ⟨.integer, some 1, some 100, none, true⟩,
   [⟨.actual, some "60".toList, some .readWrite⟩, ⟨.maxSet, some "90".toList, some .readOnly⟩]⟩

/-- A password nobody may read. -/
def exPassword : Entry :=
  ⟨⟨"SecurityCtrlr".toList, none, none⟩, ⟨"BasicAuthPassword".toList, none⟩,
   ⟨.string, none, some 40, none, true⟩,
   [⟨.actual, some "secret".toList, some .writeOnly⟩]⟩

def exDM : DM := [exInterval, exPassword]

theorem exDM_wellFormed : WellFormed exDM :=
  ⟨by decide +kernel, by decide +kernel⟩

/-! ### C36: only valid values enter the device model -/

theorem allowZero_iff (c : Comp) (v : Vbl) : allowZero c v = true ↔ ZeroAllowed c v := by
  simp only [allowZero, ZeroAllowed, Bool.or_eq_true, Bool.and_eq_true, beq_iff_eq]
  constructor
  · rintro ((h | h) | h)
    · exact .inl h
    · exact .inr ⟨h.1, .inl h.2⟩
    · exact .inr ⟨h.1, .inr h.2⟩
  · rintro (h | ⟨h, h1 | h1⟩)
    · exact .inl (.inl h)
    · exact .inl (.inr ⟨h, h1⟩)
    · exact .inr ⟨h, h1⟩

/-- C36: writing a variable is Accepted exactly if the value is one the variable admits and the attribute
exists and may be written (a ReadOnly one only by the station itself).  Partial: for the variables and
values for which the code compares correctly (`Judged`): integers that are not negative, whole limits;
`C36_violated` shows what happens otherwise. -/
theorem C36_partial (dm : DM) (hwf : WellFormed dm) (e : Entry) (he : e ∈ dm) (a : AttrType) (val : Str)
    (ro : Bool) (hj : Judged e.chars val) :
    (setValue dm e.comp e.var a val ro).1 = .accepted ↔
      Admits e.chars (ZeroAllowed e.comp e.var) val ∧
      ∃ x m, IsAttr dm e.comp e.var a x ∧ x.mutability = some m ∧ (m = .readOnly → ro = true) := by
  have hf := hwf.find he
  have key : validateValue e.chars val (allowZero e.comp e.var) = some true ↔
      Admits e.chars (ZeroAllowed e.comp e.var) val := by
    rw [validate_iff _ _ _ hj]
    have : (allowZero e.comp e.var = true) = ZeroAllowed e.comp e.var := propext (allowZero_iff _ _)
    rw [this]
  rw [setValue_accepted]
  constructor
  · rintro ⟨f, x, m, h1, h2, h3, h4, h5⟩
    rw [hf] at h1; injection h1 with h1; subst h1
    obtain ⟨h6, h7⟩ := attrOf_some h3
    exact ⟨key.mp h2, x, m, ⟨e, he, rfl, rfl, h6, h7⟩, h4, h5⟩
  · rintro ⟨h1, x, m, ⟨f, hfm, h2, h3, h4, h5⟩, h6, h7⟩
    have : f = e := pairwise_unique hwf.vars (fun x y hr => ⟨hr.1.symm, hr.2.symm⟩) hfm he ⟨h2, h3⟩
    subst this
    exact ⟨f, x, m, hf, key.mpr h1, h5 ▸ hwf.attr he h4, h6, h7⟩

/-- Non-vacuity of `C36_partial`: the interval admits 30 and refuses 300 and a time. -/
example : (setValue exDM exInterval.comp exInterval.var .actual "30".toList false).1 = .accepted ∧
    (setValue exDM exInterval.comp exInterval.var .actual "300".toList false).1 = .rejected ∧
    (setValue exDM exInterval.comp exInterval.var .actual "12:00".toList false).1 = .rejected ∧
    (setValue exDM exInterval.comp exInterval.var .maxSet "30".toList false).1 = .rejected := by
  decide +kernel

example : Judged exInterval.chars "30".toList := by
  refine ⟨⟨?_, ?_⟩, ?_⟩
  · rintro m ⟨rfl⟩; exact ⟨1, rfl⟩
  · rintro m ⟨rfl⟩; exact ⟨100, rfl⟩
  · intro n hn
    have h30 : IsIntegerText "30".toList 30 :=
      ⟨"30".toList, by decide, by unfold Digits; decide, .inl ⟨rfl, by decide⟩⟩
    rw [hn.unique h30]; decide

/-- C36, for every variable: an accepted value is of the data type of the variable and, for lists, from
its list; only its limits may be missed. -/
theorem C36_type (dm : DM) (hwf : WellFormed dm) (e : Entry) (he : e ∈ dm) (a : AttrType) (val : Str)
    (ro : Bool) (h : (setValue dm e.comp e.var a val ro).1 = .accepted) :
    Admits { e.chars with minLimit := none, maxLimit := none } True val ∧
    ∃ x m, IsAttr dm e.comp e.var a x ∧ x.mutability = some m ∧ (m = .readOnly → ro = true) := by
  obtain ⟨f, x, m, h1, h2, h3, h4, h5⟩ := (setValue_accepted _ _ _ _ _ _).mp h
  rw [hwf.find he] at h1; injection h1 with h1; subst h1
  obtain ⟨h6, h7⟩ := attrOf_some h3
  refine ⟨?_, x, m, ⟨e, he, rfl, rfl, h6, h7⟩, h4, h5⟩
  cases ht : e.chars.dataType with
  | string => simp [Admits, ht, InLimits]
  | integer =>
    simp only [validateValue, ht] at h2
    split at h2
    · simp at h2
    · rename_i hi
      simp only [Bool.not_eq_true', Bool.not_eq_false] at hi
      cases hs : stoi val with
      | none => rw [hs] at h2; simp at h2
      | some n =>
        simp only [Admits, ht]
        exact ⟨n, ((integer_iff val n).mp ⟨hi, hs⟩).1, .inr ⟨by simp, by simp⟩⟩
  | decimal =>
    simp only [validateValue, ht] at h2
    split at h2
    · simp at h2
    · rename_i hi
      simp only [Bool.not_eq_true', Bool.not_eq_false] at hi
      cases hs : stof val with
      | none => rw [hs] at h2; simp at h2
      | some n =>
        simp only [Admits, ht]
        exact ⟨n, ((decimal_iff val n).mp ⟨hi, hs⟩).1, .inr ⟨by simp, by simp⟩⟩
  | dateTime =>
    have := (validate_iff e.chars _ val (by simp [Judged, ht])).mp h2
    simpa only [Admits, ht] using this
  | boolean =>
    have := (validate_iff e.chars _ val (by simp [Judged, ht])).mp h2
    simpa only [Admits, ht] using this
  | optionList =>
    have := (validate_iff e.chars _ val (by simp [Judged, ht])).mp h2
    simpa only [Admits, ht] using this
  | sequenceList =>
    have := (validate_iff e.chars _ val (by simp [Judged, ht])).mp h2
    simpa only [Admits, ht] using this
  | memberList =>
    have := (validate_iff e.chars _ val (by simp [Judged, ht])).mp h2
    simpa only [Admits, ht] using this

/-- A lower limit of 1 and no upper limit. -/
def exMin : Entry :=
  ⟨⟨"OCPPCommCtrlr".toList, none, none⟩, ⟨"RetryBackOffWaitMinimum".toList, none⟩,
   ⟨.integer, some 1, none, none, true⟩, [⟨.actual, some "60".toList, some .readWrite⟩]⟩

/-- Limits -10 and 10. -/
def exTemperature : Entry :=
  ⟨⟨"Cooling".toList, none, none⟩, ⟨"Temperature".toList, none⟩,
   ⟨.integer, some (-10), some 10, none, true⟩, [⟨.actual, some "1".toList, some .readWrite⟩]⟩

/-- C36 is violated: an integer is compared with a `size_t`, so every negative integer counts as larger
than any limit.  A variable with the lower limit 1 accepts -5. -/
theorem C36_violated : ∃ (dm : DM) (e : Entry) (val : Str), WellFormed dm ∧ e ∈ dm ∧
    e.chars.minLimit = some 1 ∧ IsIntegerText val (-5) ∧
    (setValue dm e.comp e.var .actual val false).1 = .accepted ∧
    ¬ Admits e.chars (ZeroAllowed e.comp e.var) val := by
  refine ⟨[exMin], exMin, "-5".toList, ⟨by decide +kernel, by decide +kernel⟩, by simp, rfl, ?_, by decide +kernel, ?_⟩
  · exact ⟨"5".toList, by decide, by unfold Digits; decide, .inr (.inr ⟨rfl, by decide⟩)⟩
  · rintro ⟨n, hn, h⟩
    have h5 : IsIntegerText "-5".toList (-5) :=
      ⟨"5".toList, by decide, by unfold Digits; decide, .inr (.inr ⟨rfl, by decide⟩)⟩
    have := hn.unique h5
    subst this
    rcases h with ⟨_, h⟩ | ⟨h, _⟩
    · exact absurd h (by decide)
    · exact absurd (h 1 rfl) (by decide +kernel)

/-- C36 is violated in the other direction too: a variable with the limits -10 and 10 refuses -5. -/
theorem C36_refused_violated : ∃ (dm : DM) (e : Entry) (val : Str), WellFormed dm ∧ e ∈ dm ∧
    (setValue dm e.comp e.var .actual val false).1 = .rejected ∧
    Admits e.chars (ZeroAllowed e.comp e.var) val ∧
    (∃ x, IsAttr dm e.comp e.var .actual x ∧ x.mutability = some .readWrite) := by
  refine ⟨[exTemperature], exTemperature, "-5".toList, ⟨by decide +kernel, by decide +kernel⟩, by simp,
    by decide +kernel, ?_, ⟨_, ⟨exTemperature, by simp, rfl, rfl, List.mem_singleton.mpr rfl, rfl⟩, rfl⟩⟩
  refine ⟨-5, ⟨"5".toList, by decide, by unfold Digits; decide, .inr (.inr ⟨rfl, by decide⟩)⟩, .inr ⟨?_, ?_⟩⟩
  · rintro m ⟨rfl⟩; decide +kernel
  · rintro m ⟨rfl⟩; decide +kernel

/-! ### C72: writing and reading -/

/-- C72: a write that is not Accepted changes nothing; an Accepted one changes the value of the one
attribute and nothing else. -/
theorem C72_write (dm : DM) (c : Comp) (v : Vbl) (a : AttrType) (val : Str) (ro : Bool) :
    ((setValue dm c v a val ro).1 ≠ .accepted → (setValue dm c v a val ro).2 = dm) ∧
    ((setValue dm c v a val ro).1 = .accepted → OnlyChanged dm (setValue dm c v a val ro).2 c v a val) ∧
    (WellFormed dm → WellFormed (setValue dm c v a val ro).2) := by
  refine ⟨fun h => ?_, fun h => ?_, fun hwf => ?_⟩
  · rw [setValue_state, if_neg h]
  · rw [setValue_state, if_pos h]; exact store_only dm c v a val
  · rw [setValue_state]
    split
    · exact store_wellFormed hwf c v a val
    · exact hwf

/-- C72: what was written is read afterwards; the CSMS reads it unless the attribute is WriteOnly, in which
case the answer is Rejected without a value. -/
theorem C72_read (dm : DM) (hwf : WellFormed dm) (c : Comp) (v : Vbl) (a : AttrType) (val : Str) (ro : Bool)
    (h : (setValue dm c v a val ro).1 = .accepted) :
    requestValue (setValue dm c v a val ro).2 c v a true = (.accepted, some val) ∧
    ((∃ x, IsAttr dm c v a x ∧ x.mutability ≠ some .writeOnly) →
      requestValue (setValue dm c v a val ro).2 c v a false = (.accepted, some val)) ∧
    ((∃ x, IsAttr dm c v a x ∧ x.mutability = some .writeOnly) →
      requestValue (setValue dm c v a val ro).2 c v a false = (.rejected, none)) := by
  obtain ⟨e, x, m, h1, h2, h3, h4, h5⟩ := (setValue_accepted _ _ _ _ _ _).mp h
  obtain ⟨he, rfl, rfl⟩ := find_some h1
  obtain ⟨hx, rfl⟩ := attrOf_some h3
  have hattr : IsAttr dm e.comp e.var x.type x := ⟨e, he, rfl, rfl, hx, rfl⟩
  have hone : ∀ y, IsAttr dm e.comp e.var x.type y → y = x := by
    rintro y ⟨f, hf', k1, k2, k3, k4⟩
    have : f = e := pairwise_unique hwf.vars (fun x y hr => ⟨hr.1.symm, hr.2.symm⟩) hf' he ⟨k1, k2⟩
    subst this
    have := hwf.attr he k3
    rw [k4, h3] at this
    exact (Option.some.inj this).symm
  have hst : (setValue dm e.comp e.var x.type val ro).2 = store dm e.comp e.var x.type val := by
    rw [setValue_state, if_pos h]
  rw [hst]
  have hwf' := store_wellFormed hwf e.comp e.var x.type val
  have hattr' : IsAttr (store dm e.comp e.var x.type val) e.comp e.var x.type { x with value := some val } :=
    (store_isAttr_same _ _ _ _ _ _).mpr ⟨x, hattr, rfl⟩
  have hone' : ∀ y, IsAttr (store dm e.comp e.var x.type val) e.comp e.var x.type y →
      y = { x with value := some val } := by
    intro y hy
    obtain ⟨z, hz, rfl⟩ := (store_isAttr_same _ _ _ _ _ _).mp hy
    rw [hone z hz]
  have hent : ∃ f ∈ store dm e.comp e.var x.type val, f.comp = e.comp ∧ f.var = e.var := by
    obtain ⟨f, hf, k1, k2, _⟩ := hattr'; exact ⟨f, hf, k1, k2⟩
  have acc : ∀ w, ¬ (w = false ∧ x.mutability = some .writeOnly) →
      requestValue (store dm e.comp e.var x.type val) e.comp e.var x.type w = (.accepted, some val) := by
    intro w hw
    have sp := requestValue_spec (store dm e.comp e.var x.type val) e.comp e.var x.type w hwf'
    simp only at sp
    obtain ⟨s1, s2, s3, s4, s5⟩ := sp
    have hs : (requestValue (store dm e.comp e.var x.type val) e.comp e.var x.type w).1 = .accepted := by
      cases hq : (requestValue (store dm e.comp e.var x.type val) e.comp e.var x.type w).1 with
      | accepted => rfl
      | rejected =>
        obtain ⟨k1, y, hy, _, k2⟩ := s4.mp hq
        rw [hone' y hy] at k2
        exact absurd ⟨k1, k2⟩ hw
      | unknownComponent =>
        obtain ⟨f, hf, k, _⟩ := hent
        exact absurd ⟨f, hf, k⟩ (s1.mp hq)
      | unknownVariable => exact absurd hent (s2.mp hq).2
      | notSupportedAttributeType => exact absurd ⟨_, hattr', by simp⟩ (s3.mp hq).2
    exact Prod.ext hs ((s5 val).mpr ⟨hs, _, hattr', rfl⟩)
  refine ⟨acc true (by simp), ?_, ?_⟩
  · rintro ⟨y, hy, hm⟩
    rw [hone y hy] at hm
    exact acc false (fun hh => hm hh.2)
  · rintro ⟨y, hy, hm⟩
    rw [hone y hy] at hm
    have sp := requestValue_spec (store dm e.comp e.var x.type val) e.comp e.var x.type false hwf'
    simp only at sp
    obtain ⟨s1, s2, s3, s4, s5⟩ := sp
    have hs := s4.mpr ⟨by trivial, _, hattr', by simp, hm⟩
    refine Prod.ext hs ?_
    cases hq : (requestValue (store dm e.comp e.var x.type val) e.comp e.var x.type false).2 with
    | none => rfl
    | some u => have := ((s5 u).mp hq).1; rw [hs] at this; simp at this

/-- Non-vacuity of `C72_write` and `C72_read`: a new password is stored and not read back. -/
example : (setValue exDM exPassword.comp exPassword.var .actual "swordfish".toList false).1 = .accepted ∧
    requestValue (setValue exDM exPassword.comp exPassword.var .actual "swordfish".toList false).2
      exPassword.comp exPassword.var .actual true = (.accepted, some "swordfish".toList) ∧
    requestValue (setValue exDM exPassword.comp exPassword.var .actual "swordfish".toList false).2
      exPassword.comp exPassword.var .actual false = (.rejected, none) := by
  decide +kernel

/-! ### C74: GetVariables -/

/-- C74: GetVariables within the limits is answered with one result per item, in the order of the request,
each naming the item; the status says what is wrong, and the value is that of the attribute. -/
theorem C74 (dm : DM) (hwf : WellFormed dm) (maxItems maxBytes : Int) (size : Nat) (ds : List GetData)
    (h1 : 0 ≤ maxItems) (h2 : 0 ≤ maxBytes) :
    (maxItems < ds.length → handleGetVariables dm maxItems maxBytes size ds = .occurrenceViolation) ∧
    (ds.length ≤ maxItems → maxBytes < size → handleGetVariables dm maxItems maxBytes size ds = .formatViolation) ∧
    (ds.length ≤ maxItems → size ≤ maxBytes →
      ∃ rs, handleGetVariables dm maxItems maxBytes size ds = .results rs ∧ rs.length = ds.length ∧
      ∀ (i : Nat) (d : GetData), ds[i]? = some d → ∃ r, rs[i]? = some r ∧ r.comp = d.comp ∧ r.var = d.var ∧
        r.type = d.type.getD .actual ∧
        (r.status = .unknownComponent ↔ ¬ ∃ e ∈ dm, e.comp = d.comp) ∧
        (r.status = .unknownVariable ↔ (∃ e ∈ dm, e.comp = d.comp) ∧ ¬ ∃ e ∈ dm, e.comp = d.comp ∧ e.var = d.var) ∧
        (r.status = .notSupportedAttributeType ↔ (∃ e ∈ dm, e.comp = d.comp ∧ e.var = d.var) ∧
          ¬ ∃ x, IsAttr dm d.comp d.var r.type x ∧ x.value ≠ none) ∧
        (r.status = .rejected ↔ ∃ x, IsAttr dm d.comp d.var r.type x ∧ x.value ≠ none ∧ x.mutability = some .writeOnly) ∧
        (∀ val, r.value = some val ↔ r.status = .accepted ∧ ∃ x, IsAttr dm d.comp d.var r.type x ∧ x.value = some val)) := by
  have e1 : toSizeT maxItems = maxItems.toNat := by simp [toSizeT, h1]
  have e2 : toSizeT maxBytes = maxBytes.toNat := by simp [toSizeT, h2]
  simp only [handleGetVariables, e1, e2]
  refine ⟨fun h => by rw [if_pos (by omega)], fun h h' => by rw [if_neg (by omega), if_pos (by omega)], ?_⟩
  intro h h'
  refine ⟨getVariables dm ds, by rw [if_neg (by omega), if_neg (by omega)], by simp [getVariables], ?_⟩
  intro i d hd
  refine ⟨getOne dm d, by simp [getVariables, hd], rfl, rfl, rfl, ?_⟩
  have sp := requestValue_spec dm d.comp d.var (typeOr d.type) false hwf
  simp only at sp
  obtain ⟨s1, s2, s3, s4, s5⟩ := sp
  refine ⟨s1, s2, s3, ?_, ?_⟩
  · exact s4.trans ⟨fun h => h.2, fun h => ⟨by trivial, h⟩⟩
  · intro val
    have ev : (getOne dm d).value = (requestValue dm d.comp d.var (typeOr d.type) false).2 := by
      simp only [getOne]
      split
      · rfl
      · rename_i hne
        cases hq : (requestValue dm d.comp d.var (typeOr d.type) false).2 with
        | none => rfl
        | some u => exact absurd ((s5 u).mp hq).1 (by simpa using hne)
    rw [ev]; exact s5 val

/-- Non-vacuity of `C74`. -/
example : handleGetVariables exDM 2 1000 100
    [⟨exInterval.comp, exInterval.var, none⟩, ⟨exPassword.comp, exPassword.var, some .actual⟩] =
    .results [⟨exInterval.comp, exInterval.var, .actual, .accepted, some "60".toList⟩,
      ⟨exPassword.comp, exPassword.var, .actual, .rejected, none⟩] := by
  decide +kernel

/-! ### C37: WriteOnly values are never disclosed -/

/-- C37: neither GetVariables nor the full or configuration inventory discloses the value of a WriteOnly
attribute.  Partial: GetReport and the summary inventory are missing; see
`C37_violated` and `C37_summary_violated`. -/
theorem C37_partial (dm : DM) (hwf : WellFormed dm) :
    (∀ ds, ∀ r ∈ getVariables dm ds, ∀ val, r.value = some val →
      ∃ x, IsAttr dm r.comp r.var r.type x ∧ x.value = some val ∧ x.mutability ≠ some .writeOnly) ∧
    ¬ Discloses (baseReport .full dm) ∧ ¬ Discloses (baseReport .configuration dm) := by
  refine ⟨?_, ?_, ?_⟩
  · intro ds r hr val hv
    simp only [getVariables, List.mem_map] at hr
    obtain ⟨d, _, rfl⟩ := hr
    simp only [getOne] at hv
    split at hv
    · rename_i hacc
      simp only [beq_iff_eq] at hacc
      have sp := requestValue_spec dm d.comp d.var (typeOr d.type) false hwf
      simp only at sp
      obtain ⟨s1, s2, s3, s4, s5⟩ := sp
      obtain ⟨_, x, hx, hxv⟩ := (s5 val).mp hv
      refine ⟨x, hx, hxv, ?_⟩
      intro hm
      have := s4.mpr ⟨by trivial, x, hx, by rw [hxv]; simp, hm⟩
      rw [hacc] at this; simp at this
    · simp at hv
  · rintro ⟨r, hr, x, hx, hm, hv⟩
    simp only [baseReport, List.mem_filterMap] at hr
    obtain ⟨e, he, hr⟩ := hr
    simp only [reportOf] at hr
    split at hr
    · simp at hr
    · injection hr with hr; subst hr
      simp only [List.mem_filterMap, baseAttr, Option.some.injEq] at hx
      obtain ⟨y, _, rfl⟩ := hx
      simp only [scrub] at hm hv
      split at hv
      · simp at hv
      · rename_i hne
        rw [if_neg hne] at hm
        simp [hm] at hne
  · rintro ⟨r, hr, x, hx, hm, hv⟩
    simp only [baseReport, List.mem_filterMap] at hr
    obtain ⟨e, he, hr⟩ := hr
    simp only [reportOf] at hr
    split at hr
    · simp at hr
    · injection hr with hr; subst hr
      simp only [List.mem_filterMap, baseAttr] at hx
      obtain ⟨y, _, hx⟩ := hx
      split at hx
      · injection hx with hx; subst hx
        simp only [scrub] at hm hv
        split at hv
        · simp at hv
        · rename_i hne
          rw [if_neg hne] at hm
          simp [hm] at hne
      · simp at hx

/-- Non-vacuity of `C37_partial`: the password is in the report, without its value. -/
example : ∃ r ∈ baseReport .full exDM, r.var = exPassword.var ∧ r.attrs = [⟨.actual, none, some .writeOnly⟩] :=
  ⟨⟨exPassword.comp, exPassword.var, [⟨.actual, none, some .writeOnly⟩]⟩, by decide +kernel, rfl, rfl⟩

/-- C37 is violated by GetReport: the report it causes contains the values of WriteOnly attributes, such as
the password of the station. -/
theorem C37_violated : ∃ (dm : DM) (cvs : Option (List CompVar)) (ks : Option (List Criterion)),
    WellFormed dm ∧ ∃ r, handleGetReport .accepted false dm cvs ks = (.accepted, some r) ∧ Discloses r := by
  refine ⟨exDM, some [⟨exPassword.comp, some exPassword.var⟩], none, exDM_wellFormed,
    [⟨exPassword.comp, exPassword.var, exPassword.attrs⟩], by decide +kernel, ?_⟩
  exact ⟨_, List.mem_singleton.mpr rfl, _, List.mem_singleton.mpr rfl, rfl, by simp⟩

/-- A variable Problem that may be written but not read. -/
def exProblem : Entry :=
  ⟨⟨"Lock".toList, none, none⟩, ⟨"Problem".toList, none⟩, ⟨.boolean, none, none, none, true⟩,
   [⟨.actual, some "true".toList, some .writeOnly⟩]⟩

/-- C37 is violated by the summary inventory, which reports values without looking at their mutability. -/
theorem C37_summary_violated : ∃ dm : DM, WellFormed dm ∧ Discloses (baseReport .summary dm) := by
  refine ⟨[exProblem], ⟨by decide +kernel, by decide +kernel⟩, ⟨exProblem.comp, exProblem.var, exProblem.attrs⟩,
    by decide +kernel, _, List.mem_singleton.mpr rfl, rfl, by simp⟩

/-! ### C73: every item of SetVariables is answered -/

theorem setVariables_state (guard : DM → SetData → Bool) (ro : Bool) (ds : List SetData) :
    ∀ dm m, (setVariables guard ro dm m ds).1 = ds.foldl (fun s d => (setOne guard ro s d).2) dm := by
  induction ds with
  | nil => intro dm m; rfl
  | cons d r ih => intro dm m; simp only [setVariables, List.foldl_cons]; exact ih _ _

/-- With distinct variables every item appends one result. -/
theorem setVariables_distinct (guard : DM → SetData → Bool) (ro : Bool) (ds : List SetData) :
    ∀ dm m, ds.Pairwise (fun x y => ¬ (x.comp = y.comp ∧ x.var = y.var)) →
      (∀ p ∈ m, ∀ d ∈ ds, ¬ (p.1.comp = d.comp ∧ p.1.var = d.var)) →
      ∃ rs, (setVariables guard ro dm m ds).2 = m ++ List.zip ds rs ∧ rs.length = ds.length ∧
        ∀ (i : Nat) (d : SetData), ds[i]? = some d → rs[i]? = some ⟨d.comp, d.var, typeOr d.type,
          (setOne guard ro ((ds.take i).foldl (fun s d => (setOne guard ro s d).2) dm) d).1⟩ := by
  induction ds with
  | nil => intro dm m _ _; exact ⟨[], by simp [setVariables], rfl, by simp⟩
  | cons d r ih =>
    intro dm m hp hm
    rw [List.pairwise_cons] at hp
    have hany : (m.any fun x => x.1.comp == d.comp && x.1.var == d.var) = false := by
      rw [List.any_eq_false]
      intro p hpm hh
      simp only [Bool.and_eq_true, beq_iff_eq] at hh
      exact hm p hpm d (by simp) hh
    obtain ⟨rs, h1, h2, h3⟩ := ih (setOne guard ro dm d).2
      (upsert m d ⟨d.comp, d.var, typeOr d.type, (setOne guard ro dm d).1⟩) hp.2 (by
        intro p hpm x hx
        simp only [upsert, hany, Bool.false_eq_true, if_false, List.mem_append, List.mem_singleton] at hpm
        rcases hpm with hpm | rfl
        · exact hm p hpm x (by simp [hx])
        · exact hp.1 x hx)
    refine ⟨⟨d.comp, d.var, typeOr d.type, (setOne guard ro dm d).1⟩ :: rs, ?_, by simp [h2], ?_⟩
    · simp only [setVariables, h1, List.zip_cons_cons]
      simp only [upsert, hany, Bool.false_eq_true, if_false, List.append_assoc, List.singleton_append]
    · intro i x hx
      cases i with
      | zero => simp at hx; subst hx; simp
      | succ i =>
        simp only [List.getElem?_cons_succ, List.take_succ_cons, List.foldl_cons] at hx ⊢
        exact h3 i x hx

/-- C73, one item: an item refused by the station's own checks is Rejected and changes nothing; any other
is written as a request of the CSMS, which may not write ReadOnly attributes. -/
theorem C73_item (guard : DM → SetData → Bool) (dm : DM) (d : SetData) :
    (guard dm d = false → handleSetVariables guard dm [d] =
      (dm, [⟨d.comp, d.var, d.type.getD .actual, .rejected⟩], [])) ∧
    (guard dm d = true → (handleSetVariables guard dm [d]).1 =
        (setValue dm d.comp d.var (d.type.getD .actual) d.value false).2 ∧
      (handleSetVariables guard dm [d]).2.1 = [⟨d.comp, d.var, d.type.getD .actual,
        (setValue dm d.comp d.var (d.type.getD .actual) d.value false).1⟩]) := by
  constructor
  · intro h
    simp [handleSetVariables, setVariables, upsert, setOne, h, typeOr]
  · intro h
    simp [handleSetVariables, setVariables, upsert, setOne, h, typeOr]

/-- C73: the answer to SetVariables has one result for every item, naming it, with the status of writing
it after the items before it; the values of the device model are those after writing all of them; and the
application is told exactly of the items that were accepted.  Partial: for requests that name no variable
twice; see `C73_violated`.  (The order of the results is not part of the model.) -/
theorem C73_partial (guard : DM → SetData → Bool) (dm : DM) (ds : List SetData)
    (hd : ds.Pairwise (fun x y => ¬ (x.comp = y.comp ∧ x.var = y.var))) :
    (handleSetVariables guard dm ds).1 = ds.foldl (fun s d => (setOne guard false s d).2) dm ∧
    (handleSetVariables guard dm ds).2.1.length = ds.length ∧
    (∀ (i : Nat) (d : SetData), ds[i]? = some d → (handleSetVariables guard dm ds).2.1[i]? =
      some ⟨d.comp, d.var, d.type.getD .actual,
        (setOne guard false ((ds.take i).foldl (fun s d => (setOne guard false s d).2) dm) d).1⟩) ∧
    (∀ d, d ∈ (handleSetVariables guard dm ds).2.2 ↔ ∃ i, ds[i]? = some d ∧
      (setOne guard false ((ds.take i).foldl (fun s d => (setOne guard false s d).2) dm) d).1 = .accepted) := by
  obtain ⟨rs, h1, h2, h3⟩ := setVariables_distinct guard false ds dm [] hd (by simp)
  simp only [List.nil_append] at h1
  have hmap : (handleSetVariables guard dm ds).2.1 = rs := by
    simp only [handleSetVariables, h1]
    exact List.map_snd_zip (by omega)
  refine ⟨setVariables_state guard false ds dm [], by rw [hmap, h2], ?_, ?_⟩
  · intro i d h; rw [hmap]; exact h3 i d h
  · intro d
    simp only [handleSetVariables, h1, List.mem_map, List.mem_filter, beq_iff_eq, Prod.exists]
    constructor
    · rintro ⟨x, r, ⟨hz, hs⟩, rfl⟩
      obtain ⟨i, hi⟩ := List.getElem?_of_mem hz
      rw [List.getElem?_zip_eq_some] at hi
      refine ⟨i, hi.1, ?_⟩
      have := h3 i x hi.1
      rw [show rs[i]? = some r from hi.2] at this
      rw [Option.some.inj this] at hs
      exact hs
    · rintro ⟨i, hi, hs⟩
      refine ⟨d, ⟨d.comp, d.var, typeOr d.type, (setOne guard false ((ds.take i).foldl
        (fun s d => (setOne guard false s d).2) dm) d).1⟩, ⟨?_, hs⟩, rfl⟩
      exact List.mem_of_getElem? (i := i) (List.getElem?_zip_eq_some.mpr ⟨hi, h3 i d hi⟩)

/-- Non-vacuity of `C73_partial`. -/
example : handleSetVariables (fun _ _ => true) exDM
    [⟨exInterval.comp, exInterval.var, none, "30".toList⟩, ⟨exPassword.comp, exPassword.var, some .target, "x".toList⟩]
    = ((setValue exDM exInterval.comp exInterval.var .actual "30".toList false).2,
       [⟨exInterval.comp, exInterval.var, .actual, .accepted⟩,
        ⟨exPassword.comp, exPassword.var, .target, .notSupportedAttributeType⟩],
       [⟨exInterval.comp, exInterval.var, none, "30".toList⟩]) := by
  decide +kernel

/-- C73 is violated: results are kept in a map that does not distinguish the attributes of a variable.  A
request for the Actual and the Target of one variable gets one result only; the accepted change of the
Actual value is neither reported to the CSMS nor to the application. -/
theorem C73_violated : ∃ (dm : DM) (d1 d2 : SetData), WellFormed dm ∧ d1.type ≠ d2.type ∧
    let r := handleSetVariables (fun _ _ => true) dm [d1, d2]
    r.2.1 = [⟨d2.comp, d2.var, .target, .notSupportedAttributeType⟩] ∧ r.2.2 = [] ∧
    requestValue dm d1.comp d1.var .actual false = (.accepted, some "60".toList) ∧
    requestValue r.1 d1.comp d1.var .actual false = (.accepted, some "30".toList) :=
  ⟨exDM, ⟨exInterval.comp, exInterval.var, none, "30".toList⟩,
    ⟨exInterval.comp, exInterval.var, some .target, "30".toList⟩, exDM_wellFormed, by decide, by decide +kernel⟩

/-- C73 is violated: with the same two items the other way round the application is told of a change of the
item that was refused. -/
theorem C73_told_violated : ∃ (dm : DM) (d1 d2 : SetData), WellFormed dm ∧
    (setOne (fun _ _ => true) false dm d1).1 ≠ .accepted ∧
    (handleSetVariables (fun _ _ => true) dm [d1, d2]).2.2 = [d1] :=
  ⟨exDM, ⟨exInterval.comp, exInterval.var, some .target, "30".toList⟩,
    ⟨exInterval.comp, exInterval.var, none, "30".toList⟩, exDM_wellFormed, by decide +kernel, by decide +kernel⟩

/-! ### C75: base reports -/

theorem ciEq_iff (a b : Str) : ciEq a b = true ↔ SameIgnoringCase b a := by
  unfold ciEq SameIgnoringCase
  rw [beq_iff_eq]
  exact ⟨Eq.symm, Eq.symm⟩

theorem reported_iff (f : Entry → Attr → Option Attr) (dm : DM) (c : Comp) (v : Vbl) (x : Attr) :
    Reported (dm.filterMap (reportOf f)) c v x ↔
      ∃ e ∈ dm, e.comp = c ∧ e.var = v ∧ ∃ y ∈ e.attrs, f e y = some x := by
  simp only [Reported, List.mem_filterMap]
  constructor
  · rintro ⟨p, ⟨e, he, hp⟩, h1, h2, h3⟩
    simp only [reportOf] at hp
    split at hp
    · simp at hp
    · injection hp with hp; subst hp
      simp only [List.mem_filterMap] at h3
      exact ⟨e, he, h1, h2, h3⟩
  · rintro ⟨e, he, h1, h2, y, hy, hf⟩
    have hmem : x ∈ e.attrs.filterMap (f e) := List.mem_filterMap.mpr ⟨y, hy, hf⟩
    refine ⟨⟨e.comp, e.var, e.attrs.filterMap (f e)⟩, ⟨e, he, ?_⟩, h1, h2, hmem⟩
    simp only [reportOf]
    rw [if_neg]
    intro h; rw [h] at hmem; simp at hmem

theorem scrub_hidden (y x : Attr) : scrub y = x ↔ Hidden y x := by
  simp only [scrub, Hidden]
  by_cases h : y.mutability = some .writeOnly
  · simp [h, eq_comm]
  · have : (y.mutability == some Mut.writeOnly) = false := by simpa using h
    simp [h, this, eq_comm]

theorem reportOf_keys (f : Entry → Attr → Option Attr) (dm : DM) (hwf : WellFormed dm) :
    (dm.filterMap (reportOf f)).Pairwise (fun p q => ¬ (p.comp = q.comp ∧ p.var = q.var)) := by
  rw [List.pairwise_filterMap]
  apply hwf.vars.imp
  intro e g heg p hp q hq
  simp only [reportOf] at hp hq
  split at hp
  · simp at hp
  · split at hq
    · simp at hq
    · injection hp with hp; injection hq with hq; subst hp; subst hq; exact heg

/-- C75: the full inventory contains every attribute of every variable, the configuration inventory exactly
those that may be written, the values of WriteOnly ones left out; each variable is reported once. -/
theorem C75 (dm : DM) (hwf : WellFormed dm) (c : Comp) (v : Vbl) (x : Attr) :
    (Reported (baseReport .full dm) c v x ↔ ∃ y, IsAttr dm c v y.type y ∧ Hidden y x) ∧
    (Reported (baseReport .configuration dm) c v x ↔ ∃ y, IsAttr dm c v y.type y ∧
      (y.mutability = some .readWrite ∨ y.mutability = some .writeOnly) ∧ Hidden y x) ∧
    (∀ b, (baseReport b dm).Pairwise (fun p q => ¬ (p.comp = q.comp ∧ p.var = q.var))) := by
  refine ⟨?_, ?_, fun b => reportOf_keys _ dm hwf⟩
  · rw [baseReport, reported_iff]
    constructor
    · rintro ⟨e, he, h1, h2, y, hy, hf⟩
      simp only [baseAttr, Option.some.injEq] at hf
      exact ⟨y, ⟨e, he, h1, h2, hy, rfl⟩, (scrub_hidden y x).mp hf⟩
    · rintro ⟨y, ⟨e, he, h1, h2, hy, _⟩, hh⟩
      exact ⟨e, he, h1, h2, y, hy, by simp only [baseAttr]; rw [(scrub_hidden y x).mpr hh]⟩
  · rw [baseReport, reported_iff]
    constructor
    · rintro ⟨e, he, h1, h2, y, hy, hf⟩
      simp only [baseAttr] at hf
      split at hf
      · rename_i hm
        simp only [Bool.or_eq_true, beq_iff_eq] at hm
        injection hf with hf
        exact ⟨y, ⟨e, he, h1, h2, hy, rfl⟩, hm, (scrub_hidden y x).mp hf⟩
      · simp at hf
    · rintro ⟨y, ⟨e, he, h1, h2, hy, _⟩, hm, hh⟩
      refine ⟨e, he, h1, h2, y, hy, ?_⟩
      simp only [baseAttr]
      rw [if_pos (by simpa only [Bool.or_eq_true, beq_iff_eq] using hm), (scrub_hidden y x).mpr hh]

/-- C75: the summary inventory contains exactly the attributes that belong to it. -/
theorem C75_summary (dm : DM) (c : Comp) (v : Vbl) (x : Attr) :
    Reported (baseReport .summary dm) c v x ↔ IsAttr dm c v x.type x ∧ OfSummary c v x := by
  have key : inSummary c v x = true ↔ OfSummary c v x := by
    have hv : (x.value.getD [] == "true".toList) = true ↔ x.value = some "true".toList := by
      rw [beq_iff_eq]
      cases x.value with
      | none => exact ⟨fun h => absurd h (by decide), fun h => by simp at h⟩
      | some w => exact ⟨fun h => congrArg some h, fun h => Option.some.inj h⟩
    unfold inSummary OfSummary
    simp only [Bool.or_eq_true, Bool.and_eq_true, hv, beq_iff_eq]
    have h1 := (ciEq_iff c.name "EVSE".toList).trans ⟨Eq.symm, Eq.symm⟩
    have h2 := (ciEq_iff c.name "Connector".toList).trans ⟨Eq.symm, Eq.symm⟩
    rw [h1, h2]
    constructor
    · rintro (((h | h) | h) | h)
      · exact .inl ⟨h.2, .inl h.1⟩
      · exact .inl ⟨h.2, .inr (.inl h.1)⟩
      · exact .inl ⟨h.2, .inr (.inr h.1)⟩
      · obtain ⟨((h | h) | h) | h, h'⟩ := h
        · exact .inr ⟨.inl h, h'⟩
        · exact .inr ⟨.inr (.inl h), h'⟩
        · exact .inr ⟨.inr (.inr (.inl h)), h'⟩
        · exact .inr ⟨.inr (.inr (.inr h)), h'⟩
    · rintro (⟨h, h' | h' | h'⟩ | ⟨h | h | h | h, h'⟩)
      · exact .inl (.inl (.inl ⟨h', h⟩))
      · exact .inl (.inl (.inr ⟨h', h⟩))
      · exact .inl (.inr ⟨h', h⟩)
      · exact .inr ⟨.inl (.inl (.inl h)), h'⟩
      · exact .inr ⟨.inl (.inl (.inr h)), h'⟩
      · exact .inr ⟨.inl (.inr h), h'⟩
      · exact .inr ⟨.inr h, h'⟩
  rw [baseReport, reported_iff]
  constructor
  · rintro ⟨e, he, rfl, rfl, y, hy, hf⟩
    simp only [baseAttr] at hf
    split at hf
    · injection hf with hf; subst hf
      exact ⟨⟨e, he, rfl, rfl, hy, rfl⟩, key.mp (by assumption)⟩
    · simp at hf
  · rintro ⟨⟨e, he, rfl, rfl, hy, _⟩, hs⟩
    refine ⟨e, he, rfl, rfl, x, hy, ?_⟩
    simp only [baseAttr]
    rw [if_pos (key.mpr hs)]

/-- Non-vacuity of `C75`. -/
example : (baseReport .configuration exDM).map (fun r => r.attrs.map (·.value)) = [[some "60".toList], [none]] := by
  decide +kernel

/-! ### C76: GetReport -/

theorem cvMatches_iff (c : Comp) (v : Vbl) (x : CompVar) : cvMatches c v x = true ↔ AsksFor x c v := by
  simp only [cvMatches, AsksFor, Bool.or_eq_true, Bool.and_eq_true, beq_iff_eq, ciEq_iff]
  constructor
  · rintro (((⟨h1, h2⟩ | ⟨h1, h2⟩) | ⟨h1, h2⟩) | ⟨⟨⟨h1, h2⟩, h3⟩, h4⟩)
    · exact .inl ⟨h1.symm, .inl h2⟩
    · exact .inl ⟨h1.symm, .inr (.inl h2)⟩
    · cases hw : x.var with
      | none => rw [hw] at h2; simp at h2
      | some w =>
        rw [hw] at h2
        simp only [Bool.and_eq_true, beq_iff_eq, ciEq_iff] at h2
        exact .inl ⟨h1.symm, .inr (.inr ⟨w, rfl, h2⟩)⟩
    · exact .inr ⟨h1, h2, h3.symm, h4⟩
  · rintro (⟨rfl, h | h | ⟨w, hw, h1, h2⟩⟩ | ⟨h1, h2, h3, h4⟩)
    · exact .inl (.inl (.inl ⟨rfl, h⟩))
    · exact .inl (.inl (.inr ⟨rfl, h⟩))
    · refine .inl (.inr ⟨rfl, ?_⟩)
      rw [hw]
      simp only [Bool.and_eq_true, beq_iff_eq, ciEq_iff]
      exact ⟨h1, h2⟩
    · exact .inr ⟨⟨⟨h1, h2⟩, h3.symm⟩, h4⟩

theorem criterionMatch_iff (dm : DM) (hwf : WellFormed dm) (c : Comp) (k : Criterion) :
    criterionMatch dm c k = true ↔ Satisfies dm c k := by
  have sp := requestValue_spec dm c (criterionVariable k) .actual false hwf
  simp only at sp
  obtain ⟨s1, s2, s3, s4, s5⟩ := sp
  have en : (⟨criterionName k, none⟩ : Vbl) = criterionVariable k := by cases k <;> rfl
  simp only [criterionMatch, Satisfies, en]
  cases hq : requestValue dm c (criterionVariable k) .actual false with
  | mk st val =>
    rw [hq] at s1 s2 s3 s4 s5
    simp only at s1 s2 s3 s4 s5
    have huniq : ∀ {x y}, IsAttr dm c (criterionVariable k) .actual x →
        IsAttr dm c (criterionVariable k) .actual y → x = y := by
      rintro x y ⟨e, he, h1, h2, h3, h4⟩ ⟨f, hf, k1, k2, k3, k4⟩
      have : f = e := pairwise_unique hwf.vars (fun x y hr => ⟨hr.1.symm, hr.2.symm⟩) hf he
        ⟨k1.trans h1.symm, k2.trans h2.symm⟩
      subst this
      have a := hwf.attr he h3
      have b := hwf.attr he k3
      rw [h4] at a; rw [k4] at b
      exact Option.some.inj (a.symm.trans b)
    cases hst : st with
    | accepted =>
      cases hv : val with
      | none =>
        -- accepted always carries a value
        exfalso
        have : st = .accepted := hst
        simp only [requestValue] at hq
        split at hq
        · injection hq with a _; rw [← a] at hst; simp at hst
        · split at hq
          · injection hq with a _; rw [← a] at hst; simp at hst
          · split at hq
            · injection hq with a _; rw [← a] at hst; simp at hst
            · split at hq
              · injection hq with a _; rw [← a] at hst; simp at hst
              · split at hq
                · injection hq with a _; rw [← a] at hst; simp at hst
                · injection hq with _ b; rw [← b] at hv; simp at hv
      | some u =>
        obtain ⟨_, x, hx, hxv⟩ := (s5 u).mp hv
        have hmut : x.mutability ≠ some .writeOnly := by
          intro hm
          have := s4.mpr ⟨by trivial, x, hx, by rw [hxv]; simp, hm⟩
          rw [hst] at this; simp at this
        simp only [beq_iff_eq]
        constructor
        · intro h; exact .inl ⟨x, u, hx, hxv, hmut, by rw [SameIgnoringCase, h]; decide⟩
        · rintro (⟨y, w, hy, hyv, _, h⟩ | ⟨_, h⟩)
          · have := huniq hx hy; subst this
            rw [hxv] at hyv; injection hyv with hyv; subst hyv
            rw [SameIgnoringCase] at h; rw [h]; decide
          · exact absurd ⟨x, hx, by rw [hxv]; simp, hmut⟩ h
    | _ =>
      simp only [bne_iff_ne]
      have hno : ¬ ∃ x, IsAttr dm c (criterionVariable k) .actual x ∧ x.value ≠ none ∧ x.mutability ≠ some .writeOnly := by
        rintro ⟨x, hx, h1, h2⟩
        obtain ⟨e, he, k1, k2, k3, k4⟩ := hx
        first
        | exact (s1.mp hst) ⟨e, he, k1⟩
        | exact (s2.mp hst).2 ⟨e, he, k1, k2⟩
        | exact (s3.mp hst).2 ⟨x, ⟨e, he, k1, k2, k3, k4⟩, h1⟩
        | (obtain ⟨_, y, hy, _, hm⟩ := s4.mp hst
           have := huniq hy ⟨e, he, k1, k2, k3, k4⟩; subst this; exact h2 hm)
      constructor
      · intro h; exact .inr ⟨h, hno⟩
      · rintro (⟨x, u, hx, hxv, hm, _⟩ | ⟨h, _⟩)
        · exact absurd ⟨x, hx, by rw [hxv]; simp, hm⟩ hno
        · exact h

/-- C76: a report asked for with GetReport contains exactly the attributes of the variables asked for, in
components that satisfy one of the criteria; the answer is NotSupported for a criterion that is not
supported, EmptyResultSet if there is nothing to report, else Accepted.  Partial: provided the memory of
the response does not happen to contain NotSupported at the beginning; see `C76_violated`. -/
theorem C76_partial (dm : DM) (hwf : WellFormed dm) (init : GStatus) (hinit : init ≠ .notSupported)
    (unsupported : Bool) (cvs : Option (List CompVar)) (ks : Option (List Criterion)) :
    (unsupported = true → handleGetReport init unsupported dm cvs ks = (.notSupported, none)) ∧
    (unsupported = false → ∃ r : List Report,
      handleGetReport init unsupported dm cvs ks = (if r = [] then (.emptyResultSet, none) else (.accepted, some r)) ∧
      r.Pairwise (fun p q => ¬ (p.comp = q.comp ∧ p.var = q.var)) ∧
      ∀ c v x, Reported r c v x ↔ IsAttr dm c v x.type x ∧
        (∀ l, cvs = some l → ∃ y ∈ l, AsksFor y c v) ∧ (∀ l, ks = some l → ∃ k ∈ l, Satisfies dm c k)) := by
  refine ⟨fun h => by subst h; simp [handleGetReport], fun h => ?_⟩
  subst h
  have hb : (init != GStatus.notSupported) = true := by simpa using hinit
  refine ⟨customReport dm cvs ks, ?_, ?_, ?_⟩
  · simp only [handleGetReport, Bool.false_eq_true, if_false, hb, if_true]
  · unfold customReport
    rw [List.pairwise_filterMap]
    have hsub : (List.filter (customSelected dm cvs ks) dm).Pairwise (fun e f => ¬ (e.comp = f.comp ∧ e.var = f.var)) :=
      hwf.vars.sublist List.filter_sublist
    apply hsub.imp
    intro e g heg p hp q hq
    simp only [reportOf] at hp hq
    split at hp
    · simp at hp
    · split at hq
      · simp at hq
      · injection hp with hp; injection hq with hq; subst hp; subst hq; exact heg
  · intro c v x
    unfold customReport
    rw [reported_iff]
    have hsel : ∀ e, customSelected dm cvs ks e = true ↔
        (∀ l, cvs = some l → ∃ y ∈ l, AsksFor y e.comp e.var) ∧ (∀ l, ks = some l → ∃ k ∈ l, Satisfies dm e.comp k) := by
      intro e
      simp only [customSelected, Bool.and_eq_true]
      have a : (match ks with | none => true | some l => criteriaMatch dm e.comp l) = true ↔
          (∀ l, ks = some l → ∃ k ∈ l, Satisfies dm e.comp k) := by
        cases ks with
        | none => simp
        | some l => simp [criteriaMatch, criterionMatch_iff dm hwf]
      have b : (match cvs with | none => true | some l => l.any (cvMatches e.comp e.var)) = true ↔
          (∀ l, cvs = some l → ∃ y ∈ l, AsksFor y e.comp e.var) := by
        cases cvs with
        | none => simp
        | some l => simp [cvMatches_iff]
      exact (and_congr a b).trans and_comm
    constructor
    · rintro ⟨e, he, h1, h2, y, hy, hf⟩
      injection hf with hf; subst hf
      rw [List.mem_filter, hsel] at he
      obtain ⟨he, h3, h4⟩ := he
      subst h1; subst h2
      exact ⟨⟨e, he, rfl, rfl, hy, rfl⟩, h3, h4⟩
    · rintro ⟨⟨e, he, rfl, rfl, hx, _⟩, h3, h4⟩
      exact ⟨e, List.mem_filter.mpr ⟨he, (hsel e).mpr ⟨h3, h4⟩⟩, rfl, rfl, x, hx, rfl⟩

/-- Non-vacuity of `C76_partial`. -/
example : handleGetReport .accepted false exDM (some [⟨exInterval.comp, none⟩]) none =
    (.accepted, some [⟨exInterval.comp, exInterval.var, exInterval.attrs⟩]) := by
  decide +kernel

/-- C76 is violated: the status of the response is read before anything was written to it.  If the memory
happens to contain NotSupported, a request without any criteria is answered NotSupported and no report is
sent. -/
theorem C76_violated : ∃ (dm : DM) (init : GStatus), WellFormed dm ∧
    handleGetReport init false dm none none = (.notSupported, none) ∧ customReport dm none none ≠ [] :=
  ⟨exDM, .notSupported, exDM_wellFormed, by decide +kernel, by decide +kernel⟩

end Verif.DM
