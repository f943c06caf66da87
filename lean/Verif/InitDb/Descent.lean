import Verif.InitDb.Lemmas
import Mathlib.Data.List.Nodup
import Batteries.Data.List.Perm
import Mathlib.Tactic.NormNum
/-
From the loops to single variables, attributes and monitors.
-/
set_option linter.constructorNameAsVariable false

namespace Verif.InitDb

open Verif.DM (Str DataType AttrType ciEq)

/-! ### Finding rows -/

theorem find_nodup {A B : Type} [DecidableEq B] {f : A → B} {l : List A} (h : (l.map f).Nodup) {a : A}
    (ha : a ∈ l) : l.find? (fun x => decide (f x = f a)) = some a := by
  induction l with
  | nil => cases ha
  | cons b r ih =>
    simp only [List.map_cons, List.nodup_cons] at h
    rcases List.mem_cons.1 ha with rfl | ha'
    · simp
    · have : f b ≠ f a := fun e => h.1 (e ▸ List.mem_map.2 ⟨a, ha', rfl⟩)
      simp [this, ih h.2 ha']

theorem find_key {A B : Type} [DecidableEq B] {f : A → B} {l : List A} {k : B} {a : A}
    (h : l.find? (fun x => decide (f x = k)) = some a) : a ∈ l ∧ f a = k :=
  ⟨List.mem_of_find?_eq_some h, by simpa using List.find?_some h⟩

theorem findVar_some {db : DB} (h : OkDb db) {k : Key} {n : VKey} {w : Var} :
    findVar db k n = some w ↔ ∃ c ∈ db.comps, c.key = k ∧ w ∈ c.vars ∧ w.vkey = n := by
  unfold findVar
  constructor
  · intro hf
    split at hf
    · cases hf
    · rename_i c hc
      have hc := find_key hc
      have hw := find_key hf
      exact ⟨c, hc.1, hc.2, hw.1, hw.2⟩
  · rintro ⟨c, hc, rfl, hw, rfl⟩
    rw [find_nodup h.keys hc]
    exact find_nodup (h.ok c hc).names hw

theorem findVar_none {db : DB} (h : OkDb db) {k : Key} {n : VKey} :
    findVar db k n = none ↔ ∀ c ∈ db.comps, c.key = k → ∀ w ∈ c.vars, w.vkey ≠ n := by
  constructor
  · intro hf c hc hk w hw hn
    rw [(findVar_some h).2 ⟨c, hc, hk, hw, hn⟩] at hf
    cases hf
  · intro hf
    cases hv : findVar db k n with
    | none => rfl
    | some w =>
      obtain ⟨c, hc, hk, hw, hn⟩ := (findVar_some h).1 hv
      exact absurd hn (hf c hc hk w hw)

theorem findVar_ok {db : DB} (h : OkDb db) {k : Key} {n : VKey} {w : Var} (hf : findVar db k n = some w) :
    OkVar w db.next := by
  obtain ⟨c, hc, -, hw, -⟩ := (findVar_some h).1 hf
  exact (h.ok c hc).ok w hw

theorem findAttr_some {db : DB} (h : OkDb db) {k : Key} {n : VKey} {t : AttrType} {a : Attr} :
    findAttr db k n t = some a ↔ ∃ w, findVar db k n = some w ∧ a ∈ w.attrs ∧ a.type = some t := by
  unfold findAttr
  constructor
  · intro hf
    split at hf
    · cases hf
    · rename_i w hw
      have ha := find_key (f := Attr.type) hf
      exact ⟨w, hw, ha.1, ha.2⟩
  · rintro ⟨w, hw, ha, ht⟩
    rw [hw]
    have := find_nodup (findVar_ok h hw).types ha
    rw [ht] at this
    exact this

/-! ### Variables -/

/-- The variable of the configuration after a start. -/
theorem var_after {cfg : Config} {db db' : DB} (hc : Tidy cfg) (h : OkDb db) (hd : initDb cfg db = .done db')
    {k : Key} {v : CVar} (hv : HasVar cfg k v) :
    ∃ w' x, findVar db' k v.vkey = some w' ∧
      ((findVar db k v.vkey = none ∧ w' = (insertVar v x).1)
        ∨ ∃ w, findVar db k v.vkey = some w ∧ OkVar w x.next ∧ w' = (varSync.upd v w.read w x).1) := by
  obtain ⟨-, t, hi⟩ := initDb_done hc h hd
  have hok : OkDb db' := hi.okDb
  obtain ⟨vs, hvs, hvm⟩ := hv
  have he := hc.tidy _ hvs
  obtain ⟨c, hcm, -, hck, hcase⟩ := hi.entry hc.keys hvs
  have hck : c.key = k := hck
  rcases hcase with ⟨hno, x, rfl⟩ | ⟨c₀, hc₀, -, hk₀, x, hx, rfl⟩
  · have hs := insertComp_spec he x
    obtain ⟨w, hw, -, hwk, hwc⟩ := hs.entry he.names hvm
    rcases hwc with ⟨-, x', rfl⟩ | ⟨o, ho, -⟩
    · refine ⟨_, x', (findVar_some hok).2 ⟨_, hcm, hck, hw, hwk⟩, .inl ⟨?_, rfl⟩⟩
      rw [findVar_none h]
      intro c₁ hc₁ hk₁
      exact absurd hk₁ (hno c₁ hc₁ (h.ok c₁ hc₁).visible)
    · cases ho
  · have ho₀ := (h.ok c₀ hc₀).mono hx
    have hk₀ : c₀.key = k := hk₀
    have hs := updComp_spec he ho₀
    obtain ⟨w, hw, -, hwk, hwc⟩ := hs.entry he.names hvm
    rcases hwc with ⟨hno, x', rfl⟩ | ⟨w₀, hw₀, -, hwk₀, x', hx', rfl⟩
    · refine ⟨_, x', (findVar_some hok).2 ⟨_, hcm, hck, hw, hwk⟩, .inl ⟨?_, rfl⟩⟩
      rw [findVar_none h]
      intro c₁ hc₁ hk₁ w₁ hw₁
      have := inj_of_nodup h.keys hc₁ hc₀ (hk₁.trans hk₀.symm)
      subst this
      exact hno w₁ hw₁ (ho₀.ok w₁ hw₁).visible
    · exact ⟨_, x', (findVar_some hok).2 ⟨_, hcm, hck, hw, hwk⟩,
        .inr ⟨w₀, (findVar_some h).2 ⟨c₀, hc₀, hk₀, hw₀, hwk₀⟩, (ho₀.ok w₀ hw₀).mono hx', rfl⟩⟩

/-- Every component and variable after a start is in the configuration. -/
theorem var_listed {cfg : Config} {db db' : DB} (hc : Tidy cfg) (h : OkDb db) (hd : initDb cfg db = .done db')
    {c : Comp} (hcm : c ∈ db'.comps) {w : Var} (hw : w ∈ c.vars) :
    ∃ v, HasVar cfg c.key v ∧ v.vkey = w.vkey := by
  obtain ⟨-, t, hi⟩ := initDb_done hc h hd
  obtain ⟨⟨k, vs⟩, hvs, hck, hcase⟩ := hi.row hcm (hi.okDb.ok c hcm).visible
  have hck : c.key = k := hck
  have he := hc.tidy _ hvs
  have hwv := ((hi.okDb.ok c hcm).ok w hw).visible
  rcases hcase with ⟨hno, x, rfl⟩ | ⟨c₀, hc₀, -, hk₀, x, hx, rfl⟩
  · obtain ⟨v, hv, e, -⟩ := (insertComp_spec he x).row hw hwv
    exact ⟨v, ⟨vs, by rw [hck]; exact hvs, hv⟩, e.symm⟩
  · obtain ⟨v, hv, e, -⟩ := (updComp_spec he ((h.ok c₀ hc₀).mono hx)).row hw hwv
    exact ⟨v, ⟨vs, by rw [hck]; exact hvs, hv⟩, e.symm⟩

/-! ### Comparisons -/

theorem ciEq_symm (a b : Str) : ciEq a b = ciEq b a := by
  unfold ciEq; exact Bool.beq_comm

theorem ciEq_refl (a : Str) : ciEq a a = true := by unfold ciEq; simp

theorem optCiEq_symm (a b : Option Str) : optCiEq a b = optCiEq b a := by
  cases a <;> cases b <;> simp [optCiEq, ciEq_symm]

theorem optCiEq_refl (a : Option Str) : optCiEq a a = true := by
  cases a <;> simp [optCiEq, ciEq_refl]

theorem attrDiffers_symm (a b : CAttr) : attrDiffers a b = attrDiffers b a := by
  unfold attrDiffers
  rw [optCiEq_symm, decide_eq_decide.2 (eq_comm (a := a.type)), decide_eq_decide.2 (eq_comm (a := a.muta))]

theorem attrSame {a b : CAttr} (h : attrDiffers a b = false) :
    a.type = b.type ∧ a.muta = b.muta ∧ optCiEq a.value b.value = true := by
  simpa [attrDiffers, and_assoc] using h

theorem monSame {a b : Mon} (h : monDiffers a b = false) : a.cfg = b.cfg ∧ a.ref = b.ref ∧
    a.value - b.value ≤ epsilon ∧ b.value - a.value ≤ epsilon ∧ a.severity = b.severity ∧
    a.transaction = b.transaction ∧ a.type = b.type := by
  unfold monDiffers at h
  split at h
  · cases h
  · rename_i h1
    split at h
    · cases h
    · rename_i h2
      simp only [not_or, Decidable.not_not, not_lt] at h1 h2
      simp only [decide_eq_false_iff_not, not_or, Decidable.not_not] at h
      exact ⟨h1.1, h1.2, h2.1, h2.2, h.1, h.2.1, h.2.2⟩

theorem monDiffers_of {a b : Mon} (h : a.cfg = b.cfg ∧ a.ref = b.ref ∧
    a.value - b.value ≤ epsilon ∧ b.value - a.value ≤ epsilon ∧ a.severity = b.severity ∧
    a.transaction = b.transaction ∧ a.type = b.type) : monDiffers a b = false := by
  obtain ⟨h1, h2, h3, h4, h5, h6, h7⟩ := h
  unfold monDiffers
  rw [if_neg (by simp [h1, h2]), if_neg (by simp [h3, h4])]
  simp [h5, h6, h7]

theorem monDiffers_symm (a b : Mon) : monDiffers a b = monDiffers b a := by
  have : ∀ a b, monDiffers a b = false → monDiffers b a = false := by
    intro a b h
    obtain ⟨h1, h2, h3, h4, h5, h6, h7⟩ := monSame h
    exact monDiffers_of ⟨h1.symm, h2.symm, h4, h3, h5.symm, h6.symm, h7.symm⟩
  cases h : monDiffers a b with
  | false => exact (this a b h).symm
  | true =>
    cases h' : monDiffers b a with
    | true => rfl
    | false => rw [this b a h'] at h; cases h

theorem monDiffers_refl (a : Mon) : monDiffers a a = false :=
  monDiffers_of ⟨rfl, rfl, by norm_num [epsilon], by norm_num [epsilon], rfl, rfl, rfl⟩

theorem charsDiffer_symm (a b : Chars) : charsDiffer a b = charsDiffer b a := by
  unfold charsDiffer
  rw [optCiEq_symm a.unit, optCiEq_symm a.valuesList, decide_eq_decide.2 (eq_comm (a := a.supportsMonitoring)),
    decide_eq_decide.2 (eq_comm (a := a.dataType)), decide_eq_decide.2 (eq_comm (a := a.maxLimit)),
    decide_eq_decide.2 (eq_comm (a := a.minLimit))]

theorem charsDiffer_refl (a : Chars) : charsDiffer a a = false := by
  simp [charsDiffer, optCiEq_refl]

/-- Two lists of the same length without repeated keys: if each element of the first has a partner with the
same key in the second, then also the other way round. -/
theorem partner {A B K : Type} {f : A → K} {g : B → K} {l1 : List A} {l2 : List B} {R : A → B → Prop}
    (hl : l1.length = l2.length) (h1 : (l1.map f).Nodup) (h2 : (l2.map g).Nodup)
    (hk : ∀ a ∈ l1, ∀ b ∈ l2, R a b → f a = g b) (h : ∀ a ∈ l1, ∃ b ∈ l2, R a b) :
    ∀ b ∈ l2, ∃ a ∈ l1, R a b := by
  intro b hb
  have hsub : l1.map f ⊆ l2.map g := by
    intro k hk'
    obtain ⟨a, ha, rfl⟩ := List.mem_map.1 hk'
    obtain ⟨b, hb, hr⟩ := h a ha
    exact List.mem_map.2 ⟨b, hb, (hk a ha b hb hr).symm⟩
  have hp : (l1.map f).Perm (l2.map g) :=
    (List.subperm_of_subset h1 hsub).perm_of_length_le (by simp [hl])
  have : g b ∈ l1.map f := hp.mem_iff.2 (List.mem_map.2 ⟨b, hb, rfl⟩)
  obtain ⟨a, ha, e⟩ := List.mem_map.1 this
  obtain ⟨b', hb', hr⟩ := h a ha
  have := inj_of_nodup h2 hb' hb ((hk a ha b' hb' hr).symm.trans e)
  subst this
  exact ⟨a, ha, hr⟩

theorem sameAttrs_spec {l1 l2 : List CAttr} (h1 : (l1.map CAttr.type).Nodup) (h2 : (l2.map CAttr.type).Nodup)
    (h : sameAttrs l1 l2 = true) :
    (∀ a ∈ l1, ∃ b ∈ l2, attrDiffers a b = false) ∧ ∀ b ∈ l2, ∃ a ∈ l1, attrDiffers a b = false := by
  simp only [sameAttrs, Bool.and_eq_true, decide_eq_true_eq, List.all_eq_true, List.any_eq_true,
    Bool.not_eq_true'] at h
  have hf : ∀ a ∈ l1, ∃ b ∈ l2, attrDiffers a b = false := by
    intro a ha
    obtain ⟨b, hb, hd⟩ := h.2 a ha
    exact ⟨b, hb, by rw [attrDiffers_symm]; exact hd⟩
  exact ⟨hf, partner h.1 h1 h2 (fun a _ b _ hr => (attrSame hr).1) hf⟩

theorem sameMons_spec {l1 l2 : List Mon} (h1 : (l1.map Mon.mkey).Nodup) (h2 : (l2.map Mon.mkey).Nodup)
    (h : sameMons l1 l2 = true) :
    (∀ a ∈ l1, ∃ b ∈ l2, monDiffers a b = false) ∧ ∀ b ∈ l2, ∃ a ∈ l1, monDiffers a b = false := by
  simp only [sameMons, Bool.and_eq_true, decide_eq_true_eq, List.all_eq_true, List.any_eq_true,
    Bool.not_eq_true'] at h
  refine ⟨h.2, partner h.1 h1 h2 (fun a _ b _ hr => ?_) h.2⟩
  have := monSame hr
  simp [Mon.mkey, this.2.2.2.2.1, this.2.2.2.2.2.2]

/-! ### Attributes and monitors of a variable -/

/-- How the row of an attribute of the configuration comes about. -/
def AttrMade (dflt : Option Str) (a : CAttr) (old : List Attr) (a' : Attr) : Prop :=
  ((∀ b ∈ old, b.type ≠ a.type) ∧ ∃ x, a' = (insertAttr dflt a x).1)
  ∨ ∃ b ∈ old, b.type = a.type ∧ a' = if attrDiffers a b.read then updateAttr dflt a b b else b

/-- Attributes before and after. -/
structure AttrRel (v : CVar) (old new : List Attr) : Prop where
  row : ∀ a' ∈ new, ∃ a ∈ v.attrs, a'.type = a.type ∧ AttrMade v.dflt a old a'
  entry : ∀ a ∈ v.attrs, ∃ a' ∈ new, a'.type = a.type ∧ AttrMade v.dflt a old a'

/-- How the row of a monitor of the configuration comes about. -/
def MonMade (m : Mon) (old : List DMon) (m' : DMon) : Prop :=
  m'.mon = m ∨ (m' ∈ old ∧ monDiffers m m'.mon = false)

/-- Monitors before and after. -/
structure MonRel (v : CVar) (old new : List DMon) : Prop where
  row : ∀ m' ∈ new, m'.mon.cfg ≠ .custom → ∃ m ∈ v.mons, m'.mon.mkey = m.mkey ∧ MonMade m old m'
  entry : ∀ m ∈ v.mons, ∃ m' ∈ new, m'.mon.cfg ≠ .custom ∧ m'.mon.mkey = m.mkey ∧ MonMade m old m'
  custom : ∀ m', m'.mon.cfg = .custom → (m' ∈ new ↔ m' ∈ old)

theorem AttrInv.rel {v : CVar} {b : Nat} {old new : List Attr} {x : Ctx} (hv : TidyVar v)
    (h : AttrInv v.dflt b old v.attrs new x) : AttrRel v old new := by
  have conv : ∀ {a : CAttr} {a' : Attr},
      (((∀ o₀ ∈ old, True → o₀.type ≠ a.type) ∧ Ins (attrSync v.dflt) a a')
        ∨ ∃ o₀ ∈ old, True ∧ o₀.type = a.type ∧ Upd (attrSync v.dflt) id b a o₀ a') → AttrMade v.dflt a old a' := by
    rintro a a' (⟨h1, x, rfl⟩ | ⟨o, ho, -, he, x, -, rfl⟩)
    · exact .inl ⟨fun b hb => h1 b hb trivial, x, rfl⟩
    · exact .inr ⟨o, ho, he, rfl⟩
  constructor
  · intro a' ha'
    obtain ⟨a, ha, he, hr⟩ := h.row ha' rfl
    exact ⟨a, ha, he, conv (by simpa [attrSync] using hr)⟩
  · intro a ha
    obtain ⟨a', ha', -, he, hr⟩ := h.entry hv.types ha
    exact ⟨a', ha', he, conv (by simpa [attrSync] using hr)⟩

theorem same_attrRel {v : CVar} {old : List Attr} (hv : TidyVar v) (ht : (old.map Attr.type).Nodup)
    (h : sameAttrs v.attrs (old.map Attr.read) = true ∨ sameAttrs (old.map Attr.read) v.attrs = true) :
    AttrRel v old old := by
  have ht' : ((old.map Attr.read).map CAttr.type).Nodup := by rw [List.map_map]; exact ht
  have hs : (∀ a ∈ v.attrs, ∃ b ∈ old, attrDiffers a b.read = false)
      ∧ ∀ b ∈ old, ∃ a ∈ v.attrs, attrDiffers a b.read = false := by
    rcases h with h | h
    · obtain ⟨h1, h2⟩ := sameAttrs_spec hv.types ht' h
      constructor
      · intro a ha
        obtain ⟨b, hb, hd⟩ := h1 a ha
        obtain ⟨b, hb', rfl⟩ := List.mem_map.1 hb
        exact ⟨b, hb', hd⟩
      · intro b hb
        exact h2 _ (List.mem_map.2 ⟨b, hb, rfl⟩)
    · obtain ⟨h1, h2⟩ := sameAttrs_spec ht' hv.types h
      constructor
      · intro a ha
        obtain ⟨b, hb, hd⟩ := h2 a ha
        obtain ⟨b, hb', rfl⟩ := List.mem_map.1 hb
        exact ⟨b, hb', by rw [attrDiffers_symm]; exact hd⟩
      · intro b hb
        obtain ⟨a, ha, hd⟩ := h1 _ (List.mem_map.2 ⟨b, hb, rfl⟩)
        exact ⟨a, ha, by rw [attrDiffers_symm]; exact hd⟩
  have made : ∀ a b, b ∈ old → attrDiffers a b.read = false → b.type = a.type ∧ AttrMade v.dflt a old b := by
    intro a b hb hd
    have e : b.type = a.type := (attrSame hd).1.symm
    exact ⟨e, .inr ⟨b, hb, e, by rw [hd]; rfl⟩⟩
  constructor
  · intro b hb
    obtain ⟨a, ha, hd⟩ := hs.2 b hb
    exact ⟨a, ha, made a b hb hd⟩
  · intro a ha
    obtain ⟨b, hb, hd⟩ := hs.1 a ha
    exact ⟨b, hb, made a b hb hd⟩

theorem MonInv.rel {v : CVar} {b : Nat} {old new : List DMon} {x : Ctx} (hv : TidyVar v)
    (h : MonInv b old v.mons new x) : MonRel v old new := by
  have conv : ∀ {a : Mon} {a' : DMon},
      (((∀ o₀ ∈ old, o₀.visible = true → o₀.mon.mkey ≠ a.mkey) ∧ Ins monSync a a')
        ∨ ∃ o₀ ∈ old, o₀.visible = true ∧ o₀.mon.mkey = a.mkey ∧ Upd monSync id b a o₀ a') → MonMade a old a' := by
    rintro a a' (⟨h1, x, rfl⟩ | ⟨o, ho, -, he, x, -, rfl⟩)
    · exact .inl rfl
    · simp only [monSync, id_eq]
      split
      · exact .inl rfl
      · rename_i hd
        exact .inr ⟨ho, by simpa using hd⟩
  constructor
  · intro a' ha' hcus
    obtain ⟨a, ha, he, hr⟩ := h.row ha' (decide_eq_true hcus)
    exact ⟨a, ha, he, conv hr⟩
  · intro a ha
    obtain ⟨a', ha', hvis, he, hr⟩ := h.entry hv.mons ha
    exact ⟨a', ha', of_decide_eq_true hvis, he, conv hr⟩
  · intro m' hm'
    exact h.hidden m' (by simp [DMon.visible, hm'])

theorem same_monRel {v : CVar} {old : List DMon} (hv : TidyVar v)
    (ht : (vkeys monSync DMon.visible old).Nodup)
    (h : sameMons v.mons ((old.filter DMon.visible).map (·.mon)) = true
      ∨ sameMons ((old.filter DMon.visible).map (·.mon)) v.mons = true) : MonRel v old old := by
  have ht' : (((old.filter DMon.visible).map (·.mon)).map Mon.mkey).Nodup := by rw [List.map_map]; exact ht
  have hs : (∀ a ∈ v.mons, ∃ b ∈ old, b.visible = true ∧ monDiffers a b.mon = false)
      ∧ ∀ b ∈ old, b.visible = true → ∃ a ∈ v.mons, monDiffers a b.mon = false := by
    rcases h with h | h
    · obtain ⟨h1, h2⟩ := sameMons_spec hv.mons ht' h
      constructor
      · intro a ha
        obtain ⟨b, hb, hd⟩ := h1 a ha
        obtain ⟨b, hb', rfl⟩ := List.mem_map.1 hb
        exact ⟨b, (List.mem_filter.1 hb').1, (List.mem_filter.1 hb').2, hd⟩
      · intro b hb hvb
        exact h2 _ (List.mem_map.2 ⟨b, List.mem_filter.2 ⟨hb, hvb⟩, rfl⟩)
    · obtain ⟨h1, h2⟩ := sameMons_spec ht' hv.mons h
      constructor
      · intro a ha
        obtain ⟨b, hb, hd⟩ := h2 a ha
        obtain ⟨b, hb', rfl⟩ := List.mem_map.1 hb
        exact ⟨b, (List.mem_filter.1 hb').1, (List.mem_filter.1 hb').2, by rw [monDiffers_symm]; exact hd⟩
      · intro b hb hvb
        obtain ⟨a, ha, hd⟩ := h1 _ (List.mem_map.2 ⟨b, List.mem_filter.2 ⟨hb, hvb⟩, rfl⟩)
        exact ⟨a, ha, by rw [monDiffers_symm]; exact hd⟩
  have key : ∀ a (b : DMon), monDiffers a b.mon = false → b.mon.mkey = a.mkey := by
    intro a b hd
    have := monSame hd
    simp [Mon.mkey, this.2.2.2.2.1, this.2.2.2.2.2.2]
  constructor
  · intro b hb hcus
    obtain ⟨a, ha, hd⟩ := hs.2 b hb (decide_eq_true hcus)
    exact ⟨a, ha, key a b hd, .inr ⟨hb, hd⟩⟩
  · intro a ha
    obtain ⟨b, hb, hvb, hd⟩ := hs.1 a ha
    exact ⟨b, hb, of_decide_eq_true hvb, key a b hd, .inr ⟨hb, hd⟩⟩
  · intro m' _; rfl

/-- A variable after a start, compared with the rows `oa` and `om` of its attributes and monitors before. -/
structure VarRel (v : CVar) (oa : List Attr) (om : List DMon) (w' : Var) : Prop where
  key : w'.vkey = v.vkey
  chars : charsDiffer v.chars w'.chars = false
  attrs : AttrRel v oa w'.attrs
  mons : MonRel v om w'.mons

theorem insert_rel {v : CVar} (hv : TidyVar v) (x : Ctx) : VarRel v [] [] (insertVar v x).1 := by
  obtain ⟨x1, h1, h2, ha, hm⟩ := insertVar_spec hv x
  exact ⟨var_lawful.ins_key v x hv, charsDiffer_refl _, ha.rel hv, hm.rel hv⟩

theorem updAttrs_rel {v : CVar} {w : Var} {x : Ctx} (hv : TidyVar v) (hw : OkVar w x.next) :
    AttrRel v w.attrs (updateAttrs v w.read w x).1 := by
  rcases updateAttrs_spec hv hw with ⟨h, e⟩ | ⟨-, h⟩
  · rw [e]; exact same_attrRel hv hw.types (.inl h)
  · exact h.rel hv

theorem updMons_rel {v : CVar} {w : Var} {x : Ctx} (hv : TidyVar v) (hw : OkVar w x.next) :
    MonRel v w.mons (updateMons v w.read w x).1 := by
  rcases updateMons_spec hv hw with ⟨h, e⟩ | ⟨-, h⟩
  · rw [e]; exact same_monRel hv hw.monKeys (.inl h)
  · exact h.rel hv

theorem varSame {w : Var} {v : CVar} (h : varDiffers w.read v = false) : w.vkey = v.vkey ∧
    charsDiffer w.chars v.chars = false ∧
    sameMons ((w.mons.filter DMon.visible).map (·.mon)) v.mons = true ∧
    sameAttrs (w.attrs.map Attr.read) v.attrs = true := by
  simp only [varDiffers, Bool.not_eq_false', Bool.and_eq_true, decide_eq_true_eq, Bool.not_eq_true'] at h
  exact ⟨h.1.1.1, h.1.1.2, h.1.2, h.2⟩

theorem upd_rel {v : CVar} {w : Var} {x : Ctx} (hv : TidyVar v) (hw : OkVar w x.next) :
    VarRel v w.attrs w.mons (varSync.upd v w.read w x).1 := by
  simp only [varSync]
  cases hd : varDiffers w.read v with
  | false =>
    obtain ⟨h1, h2, h3, h4⟩ := varSame hd
    exact ⟨h1, by rw [charsDiffer_symm]; exact h2, same_attrRel hv hw.types (.inr h4),
      same_monRel hv hw.monKeys (.inr h3)⟩
  | true =>
    refine ⟨updateVar_key hv, ?_, updAttrs_rel hv hw, updMons_rel hv (hw.mono (updateAttrs_next v w.read w x))⟩
    simp only [if_true, updateVar]
    cases hc : charsDiffer v.chars w.read.chars with
    | true => exact charsDiffer_refl _
    | false => exact hc

/-- A variable of the configuration after a start. -/
theorem rel_after {cfg : Config} {db db' : DB} (hc : Tidy cfg) (h : OkDb db) (hd : initDb cfg db = .done db')
    {k : Key} {v : CVar} (hv : HasVar cfg k v) :
    ∃ w', findVar db' k v.vkey = some w' ∧
      ((findVar db k v.vkey = none ∧ VarRel v [] [] w')
        ∨ ∃ w, findVar db k v.vkey = some w ∧ VarRel v w.attrs w.mons w') := by
  obtain ⟨w', x, hf, hcase⟩ := var_after hc h hd hv
  obtain ⟨vs, hvs, hvm⟩ := hv
  have ht := (hc.tidy _ hvs).tidy v hvm
  rcases hcase with ⟨hn, rfl⟩ | ⟨w, hw, ho, rfl⟩
  · exact ⟨_, hf, .inl ⟨hn, insert_rel ht x⟩⟩
  · exact ⟨_, hf, .inr ⟨w, hw, upd_rel ht ho⟩⟩

end Verif.InitDb
