import Verif.Required.Spec
import Verif.DeviceModel.Theorems
import Mathlib.Data.List.Perm.Subperm
import Mathlib.Data.List.Nodup
/-
Lemmas about the check of the device model.
-/
set_option linter.constructorNameAsVariable false

namespace Verif.Req2

open Verif.DM

theorem nodup_eraseDups {α : Type} [BEq α] [LawfulBEq α] : ∀ (n : Nat) (l : List α), l.length ≤ n → l.eraseDups.Nodup
  | _, [], _ => by simp
  | 0, _ :: _, h => by simp at h
  | n + 1, a :: l, h => by
    rw [List.eraseDups_cons, List.nodup_cons]
    refine ⟨?_, nodup_eraseDups n _ ?_⟩
    · rw [List.mem_eraseDups]; simp
    · exact Nat.le_trans (List.length_filter_le _ _) (by simpa using h)

/-- A list without repetitions inside another one without more elements has all elements of it. -/
theorem all_of_length {α : Type} {l₁ l₂ : List α} (d : l₁.Nodup) (h : l₁ ⊆ l₂) (hl : l₂.length ≤ l₁.length) :
    ∀ x ∈ l₂, x ∈ l₁ := by
  intro x hx
  exact ((List.subperm_of_subset d h).perm_of_length_le hl).mem_iff.mpr hx

theorem length_eq_of_same {α : Type} {l₁ l₂ : List α} (d₁ : l₁.Nodup) (d₂ : l₂.Nodup) (h : ∀ x, x ∈ l₁ ↔ x ∈ l₂) :
    l₁.length = l₂.length :=
  Nat.le_antisymm (List.subperm_of_subset d₁ (fun x hx => (h x).mp hx)).length_le
    (List.subperm_of_subset d₂ (fun x hx => (h x).mpr hx)).length_le

/-! ### Reading -/

theorem request_accepted {dm : DM} (hwf : WellFormed dm) (x : CV) :
    (requestValue dm x.1 x.2 .actual true).1 = .accepted ↔ HasValue dm x := by
  have sp := requestValue_spec dm x.1 x.2 .actual true hwf
  dsimp only at sp
  obtain ⟨s1, s2, s3, s4, s5⟩ := sp
  have key : HasValue dm x → ∃ e ∈ dm, e.comp = x.1 ∧ e.var = x.2 := by
    rintro ⟨y, ⟨e, he, h1, h2, _⟩, _⟩; exact ⟨e, he, h1, h2⟩
  constructor
  · intro h
    by_cases hv : HasValue dm x
    · exact hv
    · exfalso
      by_cases hv2 : ∃ e ∈ dm, e.comp = x.1 ∧ e.var = x.2
      · rw [s3.mpr ⟨hv2, hv⟩] at h; cases h
      · by_cases hc : ∃ e ∈ dm, e.comp = x.1
        · rw [s2.mpr ⟨hc, hv2⟩] at h; cases h
        · rw [s1.mpr hc] at h; cases h
  · intro h
    obtain ⟨e, he, h1, h2⟩ := key h
    cases hr : (requestValue dm x.1 x.2 .actual true).1 with
    | accepted => rfl
    | rejected => simp at s4; exact absurd hr s4
    | unknownComponent => exact absurd ⟨e, he, h1⟩ (s1.mp hr)
    | unknownVariable => exact absurd ⟨e, he, h1, h2⟩ (s2.mp hr).2
    | notSupportedAttributeType => exact absurd h (s3.mp hr).2

theorem hasValue_iff {dm : DM} (hwf : WellFormed dm) (x : CV) : hasValue dm x = true ↔ HasValue dm x := by
  rw [hasValue, beq_iff_eq, request_accepted hwf]

theorem getText_iff {dm : DM} (hwf : WellFormed dm) (x : CV) (val : Str) :
    getText dm x = some val ↔ Value dm x val := by
  have sp := (requestValue_spec dm x.1 x.2 .actual true hwf).2.2.2.2 val
  unfold getText
  dsimp only
  constructor
  · intro h
    split at h
    · exact (sp.mp h).2
    · cases h
  · rintro ⟨y, hy, hv⟩
    have hacc : (requestValue dm x.1 x.2 .actual true).1 = .accepted :=
      (request_accepted hwf x).mpr ⟨y, hy, by simp [hv]⟩
    rw [if_pos (by simp [hacc])]
    exact sp.mpr ⟨hacc, y, hy, hv⟩

theorem hasValue_exists (dm : DM) (x : CV) : HasValue dm x ↔ ∃ val, Value dm x val := by
  constructor
  · rintro ⟨y, hy, hv⟩
    cases h : y.value with
    | none => exact absurd h hv
    | some val => exact ⟨val, y, hy, h⟩
  · rintro ⟨val, y, hy, hv⟩; exact ⟨y, hy, by simp [hv]⟩

theorem getText_none {dm : DM} (hwf : WellFormed dm) (x : CV) : getText dm x = none ↔ ¬ HasValue dm x := by
  rw [hasValue_exists]
  constructor
  · rintro h ⟨val, hv⟩; rw [(getText_iff hwf x val).mpr hv] at h; cases h
  · intro h
    cases hg : getText dm x with
    | none => rfl
    | some val => exact absurd ⟨val, (getText_iff hwf x val).mp hg⟩ h

theorem isTrue_iff {dm : DM} (hwf : WellFormed dm) (x : CV) : isTrue dm x = true ↔ SaysTrue dm x := by
  unfold isTrue SaysTrue SameIgnoringCase
  have ht : ("true".toList).map Char.toLower = "true".toList := by decide
  constructor
  · intro h
    cases hg : getText dm x with
    | none => rw [hg] at h; simp at h
    | some val =>
      rw [hg] at h
      simp only [Option.map_some, Option.getD_some, toBool, beq_iff_eq] at h
      exact ⟨val, (getText_iff hwf x val).mp hg, by rw [ht]; exact h⟩
  · rintro ⟨val, hv, hs⟩
    rw [(getText_iff hwf x val).mpr hv]
    rw [ht] at hs
    simp [toBool, hs]

theorem value_unique {dm : DM} (hwf : WellFormed dm) {x : CV} {u v : Str} (h1 : Value dm x u) (h2 : Value dm x v) :
    u = v := by
  have := (getText_iff hwf x u).mpr h1
  rw [(getText_iff hwf x v).mpr h2] at this
  injection this with this
  exact this.symm

/-! ### Versions and tables -/

theorem supportedVersions_eq : supportedVersions = named "InternalCtrlr" "SupportedOcppVersions" none := rfl

/-- The name of a version. -/
def nameOf : Version → String
  | .v16 => "ocpp1.6"
  | .v201 => "ocpp2.0.1"
  | .v21 => "ocpp2.1"
  | .unknown => "unknown"

theorem versionOf_iff (s : Str) (v : Version) : versionOf s = some v ↔ s = (nameOf v).toList := by
  unfold versionOf
  constructor
  · intro h
    split at h
    · rename_i h1; injection h with h; subst h; exact beq_iff_eq.mp h1
    · split at h
      · rename_i h1; injection h with h; subst h; exact beq_iff_eq.mp h1
      · split at h
        · rename_i h1; injection h with h; subst h; exact beq_iff_eq.mp h1
        · split at h
          · rename_i h1; injection h with h; subst h; exact beq_iff_eq.mp h1
          · cases h
  · rintro rfl
    cases v <;> decide

theorem mem_versions (csl : Str) (v : Version) : v ∈ versionsOf csl ↔ Piece (nameOf v).toList csl := by
  unfold versionsOf
  cases csl with
  | nil =>
    simp only [List.isEmpty_nil, if_true, List.not_mem_nil, false_iff]
    rw [← mem_split]
    intro h
    cases h
  | cons a l =>
    simp only [List.isEmpty_cons, Bool.false_eq_true, if_false, List.mem_filterMap]
    constructor
    · rintro ⟨s, hs, hv⟩
      rw [versionOf_iff] at hv
      subst hv
      exact (mem_split _ _).mp hs
    · intro h
      exact ⟨_, (mem_split _ _).mpr h, (versionOf_iff _ _).mpr rfl⟩

/-- The variables of `RequiredNames` one by one. -/
def alwaysList : List CV :=
  RequiredNames.flatMap (fun p => p.2.flatMap (fun q =>
    if q.2 = [] then [named p.1 q.1 none] else q.2.map (fun i => named p.1 q.1 (some i))))

theorem mem_always (x : CV) : x ∈ alwaysList ↔ AlwaysRequired x := by
  unfold alwaysList AlwaysRequired
  simp only [List.mem_flatMap]
  constructor
  · rintro ⟨p, hp, q, hq, h⟩
    refine ⟨p, hp, q, hq, ?_⟩
    split at h
    · rename_i he; exact .inl ⟨he, by simpa using h⟩
    · rw [List.mem_map] at h
      obtain ⟨i, hi, rfl⟩ := h
      exact .inr ⟨i, hi, rfl⟩
  · rintro ⟨p, hp, q, hq, h⟩
    refine ⟨p, hp, q, hq, ?_⟩
    rcases h with ⟨he, rfl⟩ | ⟨i, hi, rfl⟩
    · rw [if_pos he]; simp
    · rw [if_neg (by intro he; rw [he] at hi; cases hi), List.mem_map]
      exact ⟨i, hi, rfl⟩

theorem required_sub : ∀ x ∈ required, x ∈ alwaysList := by decide +kernel
theorem always_sub : ∀ x ∈ alwaysList, x ∈ required := by decide +kernel

theorem mem_required (x : CV) : x ∈ required ↔ AlwaysRequired x :=
  ⟨fun h => (mem_always x).mp (required_sub x h), fun h => always_sub x ((mem_always x).mpr h)⟩

/-- The pairs of `OptionalNames`. -/
def optionalPairs : List (CV × CV) :=
  OptionalNames.flatMap (fun p => p.2.2.map (fun q => (named p.1 "Available" p.2.1, named p.1 q.1 q.2)))

/-- The pairs of `requiredIf`. -/
def ifPairs : List (CV × CV) := requiredIf.flatMap (fun a => a.2.map (fun x => (a.1, x)))

theorem if_sub : ∀ p ∈ ifPairs, p ∈ optionalPairs := by decide +kernel
theorem optional_sub : ∀ p ∈ optionalPairs, p ∈ ifPairs := by decide +kernel

theorem mem_requiredIf (a x : CV) : (∃ p ∈ requiredIf, p.1 = a ∧ x ∈ p.2) ↔ RequiredWith a x := by
  have h1 : (∃ p ∈ requiredIf, p.1 = a ∧ x ∈ p.2) ↔ (a, x) ∈ ifPairs := by
    unfold ifPairs
    simp only [List.mem_flatMap, List.mem_map]
    constructor
    · rintro ⟨p, hp, rfl, hx⟩; exact ⟨p, hp, x, hx, rfl⟩
    · rintro ⟨p, hp, y, hy, he⟩
      injection he with e1 e2
      exact ⟨p, hp, e1, e2 ▸ hy⟩
  have h2 : RequiredWith a x ↔ (a, x) ∈ optionalPairs := by
    unfold RequiredWith optionalPairs
    simp only [List.mem_flatMap, List.mem_map]
    constructor
    · rintro ⟨p, hp, rfl, q, hq, rfl⟩; exact ⟨p, hp, q, hq, rfl⟩
    · rintro ⟨p, hp, q, hq, he⟩
      injection he with e1 e2
      exact ⟨p, hp, e1.symm, q, hq, e2.symm⟩
  rw [h1, h2]
  exact ⟨if_sub _, optional_sub _⟩

theorem checkRequired_iff {dm : DM} (hwf : WellFormed dm) {vs : List Version} (hvs : vs ≠ []) (x : CV) :
    checkRequired dm vs x = true ↔ ((.v201 ∈ vs ∨ .v21 ∈ vs) → HasValue dm x) := by
  unfold checkRequired
  have he : vs.isEmpty = false := by cases vs with
    | nil => exact absurd rfl hvs
    | cons a l => rfl
  rw [he]
  have hany : vs.any (fun v => requiredFor.contains v) = true ↔ (.v201 ∈ vs ∨ .v21 ∈ vs) := by
    simp only [List.any_eq_true, requiredFor, List.contains_eq_mem, List.mem_cons, List.not_mem_nil, or_false,
      decide_eq_true_eq]
    constructor
    · rintro ⟨v, hv, rfl | rfl⟩
      · exact .inl hv
      · exact .inr hv
    · rintro (h | h)
      · exact ⟨_, h, .inl rfl⟩
      · exact ⟨_, h, .inr rfl⟩
  simp only [Bool.false_eq_true, if_false]
  split
  · rename_i h; rw [hasValue_iff hwf]; exact ⟨fun h2 _ => h2, fun h2 => h2 (hany.mp h)⟩
  · rename_i h; simp only [true_iff]; intro h2; exact absurd (hany.mpr h2) h

/-- The variables that are reported missing. -/
theorem mem_missing {dm : DM} (hwf : WellFormed dm) {vs : List Version} (hvs : vs ≠ []) (x : CV) :
    x ∈ missing dm vs ↔ (.v201 ∈ vs ∨ .v21 ∈ vs) ∧ Needed dm x ∧ ¬ HasValue dm x := by
  have hc : checkRequired dm vs x = false ↔ (.v201 ∈ vs ∨ .v21 ∈ vs) ∧ ¬ HasValue dm x := by
    rw [← Bool.not_eq_true, checkRequired_iff hwf hvs, Classical.not_imp]
  unfold missing Needed
  rw [List.mem_append, List.mem_filter, List.mem_flatMap, mem_required]
  simp only [Bool.not_eq_true']
  constructor
  · rintro (⟨h1, h2⟩ | ⟨p, hp, h⟩)
    · exact ⟨(hc.mp h2).1, .inl h1, (hc.mp h2).2⟩
    · split at h
      · rename_i ht
        rw [List.mem_filter] at h
        have h2 := hc.mp (by simpa using h.2)
        exact ⟨h2.1, .inr ⟨p.1, (mem_requiredIf _ _).mp ⟨p, hp, rfl, h.1⟩, (isTrue_iff hwf _).mp ht⟩, h2.2⟩
      · cases h
  · rintro ⟨h1, h2, h3⟩
    have h4 := hc.mpr ⟨h1, h3⟩
    rcases h2 with h2 | ⟨a, ha, ht⟩
    · exact .inl ⟨h2, h4⟩
    · right
      obtain ⟨p, hp, rfl, hx⟩ := (mem_requiredIf _ _).mpr ha
      refine ⟨p, hp, ?_⟩
      rw [if_pos ((isTrue_iff hwf _).mpr ht), List.mem_filter]
      exact ⟨hx, by simpa using h4⟩

theorem supports2_of {dm : DM} (hwf : WellFormed dm) {csl : Str} (hv : Value dm supportedVersions csl) :
    Supports2 dm ↔ (.v201 ∈ versionsOf csl ∨ .v21 ∈ versionsOf csl) := by
  unfold Supports2 Supports
  rw [mem_versions, mem_versions, ← supportedVersions_eq]
  constructor
  · rintro (⟨c, h1, h2⟩ | ⟨c, h1, h2⟩)
    · rw [value_unique hwf h1 hv] at h2; exact .inl h2
    · rw [value_unique hwf h1 hv] at h2; exact .inr h2
  · rintro (h | h)
    · exact .inl ⟨csl, hv, h⟩
    · exact .inr ⟨csl, hv, h⟩

theorem supportsKnown_of {dm : DM} (hwf : WellFormed dm) {csl : Str} (hv : Value dm supportedVersions csl) :
    SupportsKnown dm ↔ versionsOf csl ≠ [] := by
  unfold SupportsKnown
  rw [supports2_of hwf hv]
  have hs : ∀ v, Supports dm (nameOf v) ↔ v ∈ versionsOf csl := by
    intro v
    rw [mem_versions]
    unfold Supports
    rw [← supportedVersions_eq]
    constructor
    · rintro ⟨c, h1, h2⟩; rw [value_unique hwf h1 hv] at h2; exact h2
    · intro h; exact ⟨csl, hv, h⟩
  have h16 := hs .v16
  have hun := hs .unknown
  simp only [nameOf] at h16 hun
  rw [h16, hun]
  constructor
  · intro h he; rw [he] at h; simp at h
  · intro h
    obtain ⟨v, hv2⟩ := List.exists_mem_of_ne_nil _ h
    cases v
    · exact .inr (.inl hv2)
    · exact .inl (.inl hv2)
    · exact .inl (.inr hv2)
    · exact .inr (.inr hv2)

theorem supportsKnown_value {dm : DM} (h : SupportsKnown dm) : ∃ csl, Value dm supportedVersions csl := by
  rcases h with (⟨c, h, _⟩ | ⟨c, h, _⟩) | ⟨c, h, _⟩ | ⟨c, h, _⟩ <;> exact ⟨c, h⟩

theorem checkVariables_none {dm : DM} (hwf : WellFormed dm) :
    checkVariables dm = none ↔ SupportsKnown dm ∧ (Supports2 dm → ∀ x, Needed dm x → HasValue dm x) := by
  unfold checkVariables
  cases hg : getText dm supportedVersions with
  | none =>
    simp only [reduceCtorEq, false_iff, not_and]
    intro h
    obtain ⟨csl, hv⟩ := supportsKnown_value h
    rw [(getText_iff hwf _ _).mpr hv] at hg
    cases hg
  | some csl =>
    have hv := (getText_iff hwf _ _).mp hg
    dsimp only
    rw [supportsKnown_of hwf hv, supports2_of hwf hv]
    by_cases he : versionsOf csl = []
    · rw [he]; simp
    · have : (versionsOf csl).isEmpty = false := by simpa using he
      rw [this]
      simp only [Bool.false_eq_true, if_false]
      have hm := mem_missing hwf he
      split
      · rename_i h
        simp only [true_iff]
        refine ⟨he, fun h2 x hx => ?_⟩
        by_cases hh : HasValue dm x
        · exact hh
        · have := (hm x).mpr ⟨h2, hx, hh⟩
          rw [List.isEmpty_iff.mp h] at this
          cases this
      · rename_i h
        simp only [reduceCtorEq, false_iff, not_and]
        intro _ hall
        apply h
        rw [List.isEmpty_iff, List.eq_nil_iff_forall_not_mem]
        intro x hx
        obtain ⟨h1, h2, h3⟩ := (hm x).mp hx
        exact h3 (hall h1 x h2)

/-! ### Structure -/

theorem mem_components (dm : DM) (c : Comp) : c ∈ components dm ↔ Present dm c := by
  unfold components Present
  rw [List.mem_eraseDups, List.mem_map]

theorem components_nodup (dm : DM) : (components dm).Nodup := nodup_eraseDups _ _ (Nat.le_refl _)

theorem needs_none {dm : DM} (hwf : WellFormed dm) (c : Comp) (l : List Vbl) :
    l.findSome? (needValue dm c) = none ↔ ∀ v ∈ l, HasValue dm (c, v) := by
  rw [List.findSome?_eq_none_iff]
  have h : ∀ v, needValue dm c v = none ↔ HasValue dm (c, v) := by
    intro v
    rw [← hasValue_iff hwf]
    unfold needValue
    split
    · rename_i h; simp [h]
    · rename_i h; simp [h]
  exact ⟨fun h2 v hv => (h v).mp (h2 v hv), fun h2 v hv => (h v).mpr (h2 v hv)⟩

theorem hasValue_present {dm : DM} {c : Comp} {v : Vbl} (h : HasValue dm (c, v)) : Present dm c := by
  obtain ⟨y, ⟨e, he, h1, _⟩, _⟩ := h
  exact ⟨e, he, h1⟩

theorem requiredConnector_mem (dm : DM) (i k : Int) :
    (∀ v ∈ requiredConnector, HasValue dm (connectorComp i k, v)) ↔ ConnectorComplete dm i k := by
  unfold ConnectorComplete requiredConnector connectorComp vbl
  simp

theorem requiredEvse_mem (dm : DM) (i : Int) :
    (∀ v ∈ requiredEvse, HasValue dm (evseComp i, v)) ↔
      ∀ v ∈ ["Available", "AvailabilityState", "SupplyPhases"],
        HasValue dm (⟨"EVSE".toList, none, some (i, none)⟩, vbl v) := by
  unfold requiredEvse evseComp vbl
  simp

theorem requiredV2x_mem (dm : DM) (i : Int) :
    (∀ v ∈ requiredV2x, HasValue dm (v2xComp i, v)) ↔ V2xComplete dm i := by
  unfold V2xComplete requiredV2x v2xComp vbl
  simp

theorem checkConnector_none {dm : DM} (hwf : WellFormed dm) (i k : Int) :
    checkConnector dm i k = none ↔ ConnectorComplete dm i k := by
  unfold checkConnector
  rw [← requiredConnector_mem]
  by_cases hc : hasComp dm (connectorComp i k) = true
  · rw [hc]
    simp only [Bool.not_true, Bool.false_eq_true, if_false]
    exact needs_none hwf _ _
  · have : hasComp dm (connectorComp i k) = false := by simpa using hc
    rw [this]
    simp only [Bool.not_false, if_true, reduceCtorEq, false_iff]
    intro h
    obtain ⟨e, he, h1⟩ := hasValue_present (h _ (List.mem_cons_self))
    exact hc ((hasComp_iff _ _).mpr ⟨e, he, h1⟩)

theorem checkPower_none {dm : DM} (hwf : WellFormed dm) (i : Int) :
    checkPower dm i = none ↔
      ∃ e ∈ dm, e.comp = ⟨"EVSE".toList, none, some (i, none)⟩ ∧ e.var = vbl "Power" ∧ e.chars.maxLimit ≠ none := by
  unfold checkPower
  cases hf : find dm (evseComp i) ⟨"Power".toList, none⟩ with
  | none =>
    simp only [reduceCtorEq, false_iff]
    rintro ⟨e, he, h1, h2, _⟩
    exact find_none hf e he ⟨h1, h2⟩
  | some e =>
    obtain ⟨h1, h2, h3⟩ := find_some hf
    dsimp only
    constructor
    · intro h
      split at h
      · rename_i hm
        exact ⟨e, h1, h2, h3, by intro hn; rw [hn] at hm; cases hm⟩
      · cases h
    · rintro ⟨f, hf1, hf2, hf3, hf4⟩
      have := hwf.find hf1
      rw [hf2, hf3] at this
      have h5 := hf.symm.trans this
      injection h5 with h5
      subst h5
      rw [if_pos]
      cases hm : e.chars.maxLimit with
      | none => exact absurd hm hf4
      | some _ => rfl

theorem checkV2x_none {dm : DM} (hwf : WellFormed dm) (st : List (Int × Int)) (i : Int) :
    checkV2x dm st i = none ↔
      (Present dm (v2xComp i) → (∃ j m, (j, m) ∈ st ∧ V2xAvailable dm j) → V2xComplete dm i) := by
  have hav : st.any (fun e => isTrue dm (v2xComp e.1, ⟨"Available".toList, none⟩)) = true ↔
      ∃ j m, (j, m) ∈ st ∧ V2xAvailable dm j := by
    rw [List.any_eq_true]
    constructor
    · rintro ⟨⟨j, m⟩, h1, h2⟩; exact ⟨j, m, h1, (isTrue_iff hwf _).mp h2⟩
    · rintro ⟨j, m, h1, h2⟩; exact ⟨(j, m), h1, (isTrue_iff hwf _).mpr h2⟩
  unfold checkV2x
  split
  · rename_i h
    rw [Bool.and_eq_true, hasComp_iff, hav] at h
    rw [needs_none hwf, requiredV2x_mem]
    exact ⟨fun h2 _ _ => h2, fun h2 => h2 h.1 h.2⟩
  · rename_i h
    simp only [true_iff]
    intro h1 h2
    exfalso; apply h
    rw [Bool.and_eq_true, hasComp_iff, hav]
    exact ⟨h1, h2⟩

theorem connectorCount_iff {dm : DM} (i n : Int) (hk : ∀ k, 1 ≤ k → k ≤ n → ConnectorComplete dm i k) :
    (connectorCount dm i : Int) = n ↔ (0 ≤ n ∧ ∀ c, Present dm c → c.name = "Connector".toList →
      c.evse.map (·.1) = some i → ∃ k, 1 ≤ k ∧ k ≤ n ∧ c = ⟨"Connector".toList, none, some (i, some k)⟩) := by
  let L := (components dm).filter (fun c => c.name == "Connector".toList && c.evse.map (·.1) == some i)
  let M := (List.range n.toNat).map (fun (k : Nat) => connectorComp i (k + 1))
  have hL : connectorCount dm i = L.length := rfl
  have hM : M.length = n.toNat := by simp [M]
  have dL : L.Nodup := (components_nodup dm).filter _
  have dM : M.Nodup := by
    have hinj : Function.Injective (fun (k : Nat) => connectorComp i (k + 1)) := by
      intro a b h
      have h2 : (connectorComp i (a + 1)).evse = (connectorComp i (b + 1)).evse := congrArg Comp.evse h
      unfold connectorComp at h2
      simp only [Option.some.injEq, Prod.mk.injEq, true_and] at h2
      omega
    exact List.Nodup.map hinj List.nodup_range
  have mL : ∀ c, c ∈ L ↔ Present dm c ∧ c.name = "Connector".toList ∧ c.evse.map (·.1) = some i := by
    intro c
    simp only [L, List.mem_filter, mem_components, Bool.and_eq_true, beq_iff_eq]
  have mM : ∀ c, c ∈ M ↔ ∃ k, 1 ≤ k ∧ k ≤ n ∧ c = ⟨"Connector".toList, none, some (i, some k)⟩ := by
    intro c
    simp only [M, List.mem_map, List.mem_range]
    constructor
    · rintro ⟨k, hk, rfl⟩; exact ⟨k + 1, by omega, by omega, rfl⟩
    · rintro ⟨k, h1, h2, rfl⟩
      refine ⟨(k - 1).toNat, by omega, ?_⟩
      unfold connectorComp
      have : (((k - 1).toNat : Nat) : Int) + 1 = k := by omega
      rw [this]
  have hsub : M ⊆ L := by
    intro c hc
    obtain ⟨k, h1, h2, rfl⟩ := (mM c).mp hc
    refine (mL _).mpr ⟨hasValue_present (hk k h1 h2 "Available" (by simp)), rfl, rfl⟩
  rw [hL]
  constructor
  · intro h
    refine ⟨by omega, fun c h1 h2 h3 => ?_⟩
    exact (mM c).mp (all_of_length dM hsub (by omega) c ((mL c).mpr ⟨h1, h2, h3⟩))
  · rintro ⟨h0, h⟩
    have := length_eq_of_same dL dM (fun c => ⟨fun hc => by
      obtain ⟨h1, h2, h3⟩ := (mL c).mp hc
      exact (mM c).mpr (h c h1 h2 h3), fun hc => hsub hc⟩)
    omega

theorem checkEvse_none {dm : DM} (hwf : WellFormed dm) (st : List (Int × Int)) (i n : Int) :
    checkEvse dm st i n = none ↔
      (0 ≤ n ∧ ∀ c, Present dm c → c.name = "Connector".toList →
        c.evse.map (·.1) = some i → ∃ k, 1 ≤ k ∧ k ≤ n ∧ c = ⟨"Connector".toList, none, some (i, some k)⟩) ∧
      EvseComplete dm i ∧
      (Present dm (v2xComp i) → (∃ j m, (j, m) ∈ st ∧ V2xAvailable dm j) → V2xComplete dm i) ∧
      (∀ k, 1 ≤ k → k ≤ n → ConnectorComplete dm i k) := by
  have hrange : (List.range n.toNat).findSome? (fun (k : Nat) => checkConnector dm i (k + 1)) = none ↔
      ∀ k, 1 ≤ k → k ≤ n → ConnectorComplete dm i k := by
    rw [List.findSome?_eq_none_iff]
    constructor
    · intro h k h1 h2
      have := h (k - 1).toNat (List.mem_range.mpr (by omega))
      rw [checkConnector_none hwf] at this
      have he : (((k - 1).toNat : Nat) : Int) + 1 = k := by omega
      rwa [he] at this
    · intro h k hk
      rw [checkConnector_none hwf]
      have := List.mem_range.mp hk
      exact h _ (by omega) (by omega)
  constructor
  · intro h
    unfold checkEvse at h
    split at h
    · cases h
    · rename_i hc
      split at h
      · cases h
      · rw [Option.or_eq_none_iff, Option.or_eq_none_iff, Option.or_eq_none_iff, hrange, needs_none hwf,
          requiredEvse_mem, checkPower_none hwf, checkV2x_none hwf] at h
        obtain ⟨h1, h2, h3, h4⟩ := h
        refine ⟨(connectorCount_iff i n h4).mp ?_, ⟨h1, h2⟩, h3, h4⟩
        simpa using hc
  · rintro ⟨h0, ⟨h1, h2⟩, h3, h4⟩
    unfold checkEvse
    rw [if_neg (by simpa using (connectorCount_iff i n h4).mpr h0), if_neg, Option.or_eq_none_iff,
      Option.or_eq_none_iff, Option.or_eq_none_iff, hrange, needs_none hwf, requiredEvse_mem, checkPower_none hwf,
      checkV2x_none hwf]
    · exact ⟨h1, h2, h3, h4⟩
    · have := (hasComp_iff dm (evseComp i)).mpr (hasValue_present (h1 "Available" (by simp)))
      simp [this]

theorem evseCount_iff {dm : DM} (st : List (Int × Int)) (hst : (st.map (·.1)).Nodup)
    (hp : ∀ i n, (i, n) ∈ st → EvseComplete dm i) :
    evseCount dm = st.length ↔ ∀ c, Present dm c → c.name = "EVSE".toList →
      ∃ i n, (i, n) ∈ st ∧ c = ⟨"EVSE".toList, none, some (i, none)⟩ := by
  let L := (components dm).filter (fun c => c.name == "EVSE".toList)
  let M := st.map (fun e => evseComp e.1)
  have dL : L.Nodup := (components_nodup dm).filter _
  have dM : M.Nodup := by
    have : M = (st.map (·.1)).map evseComp := by simp [M]
    rw [this]
    have hinj : Function.Injective evseComp := by
      intro a b h
      have h2 : (evseComp a).evse = (evseComp b).evse := congrArg Comp.evse h
      unfold evseComp at h2
      simpa using h2
    exact List.Nodup.map hinj hst
  have mL : ∀ c, c ∈ L ↔ Present dm c ∧ c.name = "EVSE".toList := by
    intro c; simp only [L, List.mem_filter, mem_components, beq_iff_eq]
  have mM : ∀ c, c ∈ M ↔ ∃ i n, (i, n) ∈ st ∧ c = ⟨"EVSE".toList, none, some (i, none)⟩ := by
    intro c
    simp only [M, List.mem_map]
    constructor
    · rintro ⟨⟨i, n⟩, h, rfl⟩; exact ⟨i, n, h, rfl⟩
    · rintro ⟨i, n, h, rfl⟩; exact ⟨(i, n), h, rfl⟩
  have hsub : M ⊆ L := by
    intro c hc
    obtain ⟨i, n, h, rfl⟩ := (mM c).mp hc
    exact (mL _).mpr ⟨hasValue_present ((hp i n h).values "Available" (by simp)), rfl⟩
  have hMl : M.length = st.length := by simp [M]
  show L.length = st.length ↔ _
  constructor
  · intro h c h1 h2
    exact (mM c).mp (all_of_length dM hsub (by omega) c ((mL c).mpr ⟨h1, h2⟩))
  · intro h
    have := length_eq_of_same dL dM (fun c => ⟨fun hc => by
      obtain ⟨h1, h2⟩ := (mL c).mp hc
      exact (mM c).mpr (h c h1 h2), fun hc => hsub hc⟩)
    omega

theorem stray_iff (dm : DM) : strayConnector dm = false ↔
    ∀ c, Present dm c → c.name = "Connector".toList → c.evse ≠ none := by
  unfold strayConnector
  rw [List.any_eq_false]
  constructor
  · intro h c h1 h2 h3
    exact h c ((mem_components dm c).mpr h1) (by simp [h2, h3])
  · intro h c h1 h2
    rw [Bool.and_eq_true, beq_iff_eq, Option.isNone_iff_eq_none] at h2
    exact h c ((mem_components dm c).mp h1) h2.1 h2.2

end Verif.Req2
