import Verif.Keys.Model

/-! # C217, C218: names of components and variables as keys -/

namespace Verif.Keys

/-! ## Specification -/

/-- A strict total order. -/
structure Total {α : Type} (lt : α → α → Bool) : Prop where
  irrefl : ∀ a, lt a a = false
  trans : ∀ a b c, lt a b = true → lt b c = true → lt a c = true
  total : ∀ a b, lt a b = true ∨ a = b ∨ lt b a = true

/-- No component of the list has a twin that differs from it in the case of its instance only. -/
def NoTwins (l : List Key) : Prop := ∀ a ∈ l, ∀ b ∈ l, compEq a.comp b.comp = true → a.comp = b.comp

/-! ## Helper lemmas -/

theorem Total.asymm {α : Type} {lt : α → α → Bool} (h : Total lt) (a b : α) (hab : lt a b = true) : lt b a = false := by
  cases hba : lt b a with
  | false => rfl
  | true => have := h.trans a b a hab hba; rw [h.irrefl] at this; cases this

theorem textLt_total : Total textLt where
  irrefl := by
    intro a
    induction a with
    | nil => rfl
    | cons x l ih => simp [textLt, ih]
  trans := by
    intro a
    induction a with
    | nil => intro b c h1 h2; cases b <;> cases c <;> simp_all [textLt]
    | cons x l ih =>
      intro b c h1 h2
      cases b with
      | nil => simp [textLt] at h1
      | cons y m =>
        cases c with
        | nil => simp [textLt] at h2
        | cons z n =>
          simp only [textLt] at h1 h2 ⊢
          by_cases h : x < y
          · by_cases k : y < z
            · rw [if_pos (by omega)]
            · rw [if_neg k] at h2
              by_cases k2 : z < y
              · rw [if_pos k2] at h2; cases h2
              · rw [if_pos (by omega)]
          · rw [if_neg h] at h1
            by_cases h' : y < x
            · rw [if_pos h'] at h1; cases h1
            · rw [if_neg h'] at h1
              by_cases k : y < z
              · rw [if_pos (by omega)]
              · rw [if_neg k] at h2
                by_cases k2 : z < y
                · rw [if_pos k2] at h2; cases h2
                · rw [if_neg k2] at h2
                  rw [if_neg (by omega), if_neg (by omega)]
                  exact ih m n h1 h2
  total := by
    intro a
    induction a with
    | nil => intro b; cases b <;> simp [textLt]
    | cons x l ih =>
      intro b
      cases b with
      | nil => simp [textLt]
      | cons y m =>
        simp only [textLt]
        by_cases h : x < y
        · simp [h]
        · by_cases h' : y < x
          · simp [h']
          · have : x = y := by omega
            subst this
            simp only [h, if_false]
            rcases ih m with h1 | h1 | h1
            · simp [h1]
            · simp [h1]
            · simp [h1]

theorem optLt_total {α : Type} {lt : α → α → Bool} (h : Total lt) : Total (optLt lt) where
  irrefl := by intro a; cases a <;> simp [optLt, h.irrefl]
  trans := by
    intro a b c h1 h2
    cases a <;> cases b <;> cases c <;> simp_all [optLt]
    exact h.trans _ _ _ h1 h2
  total := by
    intro a b
    cases a with
    | none => cases b <;> simp [optLt]
    | some x =>
      cases b with
      | none => simp [optLt]
      | some y => simpa [optLt] using h.total x y

theorem intLt_total : Total (fun x y : Int => decide (x < y)) where
  irrefl := by simp
  trans := by intro a b c; simp; omega
  total := by intro a b; simp; omega

/-- A lexicographic comparison by a first member that decides unless it is the same. -/
theorem lex_total {α β γ : Type} [DecidableEq β] (f : α → β) (g : α → γ) (hfg : ∀ a b, f a = f b → g a = g b → a = b)
    {lf : β → β → Bool} {lg : γ → γ → Bool} (hf : Total lf) (hg : Total lg) :
    Total (fun a b => if f a ≠ f b then lf (f a) (f b) else lg (g a) (g b)) where
  irrefl := by intro a; simp [hg.irrefl]
  trans := by
    intro a b c h1 h2
    by_cases h : f a = f b
    · by_cases k : f b = f c
      · have e : f a = f c := h.trans k
        simp only [h, ne_eq, not_true_eq_false, if_false] at h1
        simp only [k, ne_eq, not_true_eq_false, if_false] at h2
        simp only [e, ne_eq, not_true_eq_false, if_false]
        exact hg.trans _ _ _ h1 h2
      · simp only [ne_eq, k, not_false_eq_true, if_true] at h2
        rw [← h] at h2 k
        simp only [ne_eq, k, not_false_eq_true, if_true]
        exact h2
    · simp only [ne_eq, h, not_false_eq_true, if_true] at h1
      by_cases k : f b = f c
      · rw [k] at h1 h
        simp only [ne_eq, h, not_false_eq_true, if_true]
        exact h1
      · simp only [ne_eq, k, not_false_eq_true, if_true] at h2
        have h3 := hf.trans _ _ _ h1 h2
        have e : f a ≠ f c := by
          intro e; rw [e, hf.irrefl] at h3; cases h3
        simp only [ne_eq, e, not_false_eq_true, if_true]
        exact h3
  total := by
    intro a b
    by_cases h : f a = f b
    · simp only [h, ne_eq, not_true_eq_false, if_false]
      rcases hg.total (g a) (g b) with h1 | h1 | h1
      · exact Or.inl h1
      · exact Or.inr (Or.inl (hfg a b h h1))
      · exact Or.inr (Or.inr h1)
    · have h' : ¬ f b = f a := fun e => h e.symm
      simp only [ne_eq, h, h', not_false_eq_true, if_true]
      rcases hf.total (f a) (f b) with h1 | h1 | h1
      · exact Or.inl h1
      · exact absurd h1 h
      · exact Or.inr (Or.inr h1)

theorem evseLt_total : Total evseLt :=
  lex_total Evse.id Evse.connector (by rintro ⟨a, b⟩ ⟨c, d⟩ h1 h2; simp_all) intLt_total (optLt_total intLt_total)

theorem varLt_total : Total varLt :=
  lex_total Variable.name Variable.inst (by rintro ⟨a, b⟩ ⟨c, d⟩ h1 h2; simp_all) textLt_total (optLt_total textLt_total)

theorem compLt_total : Total compLt := by
  have h2 : Total (fun a b : Option Text × Option Evse => if a.1 ≠ b.1 then optLt textLt a.1 b.1 else optLt evseLt a.2 b.2) :=
    lex_total Prod.fst Prod.snd (by rintro ⟨a, b⟩ ⟨c, d⟩ h1 h2; simp_all) (optLt_total textLt_total) (optLt_total evseLt_total)
  exact lex_total Component.name (fun c => (c.inst, c.evse)) (by rintro ⟨a, b, c⟩ ⟨d, e, f⟩ h1 h2; simp_all) textLt_total h2

theorem optEq_refl {α : Type} {eq : α → α → Bool} (h : ∀ a, eq a a = true) (a : Option α) : optEq eq a a = true := by
  cases a <;> simp [optEq, h]

theorem compEq_refl (a : Component) : compEq a a = true := by
  simp [compEq, optEq_refl (eq := iequals) (by simp [iequals]), optEq_refl (eq := evseEq) (fun e => by
    simp [evseEq, optEq_refl (eq := fun x y : Int => x == y) (by simp)])]

/-- Without twins the order is the lexicographic one. -/
def lexLt (a b : Key) : Bool := if a.comp ≠ b.comp then compLt a.comp b.comp else varLt a.var b.var

theorem lexLt_total : Total lexLt :=
  lex_total Key.comp Key.var (by rintro ⟨a, b⟩ ⟨c, d⟩ h1 h2; simp_all) compLt_total varLt_total

theorem keyLt_lex {l : List Key} (h : NoTwins l) {a b : Key} (ha : a ∈ l) (hb : b ∈ l) : keyLt a b = lexLt a b := by
  unfold keyLt lexLt
  by_cases he : a.comp = b.comp
  · rw [he, compEq_refl]; simp
  · have : compEq a.comp b.comp = false := by
      cases hc : compEq a.comp b.comp with
      | false => rfl
      | true => exact absurd (h a ha b hb hc) he
    rw [this]; simp [he]

/-! ## C217: results of SetVariables -/

/-- The last result for a key. -/
def last {β : Type} (k : Key) (l : List (Key × β)) : Option β := (l.reverse.find? fun e => decide (e.1 = k)).map (·.2)

theorem last_snoc {β : Type} (k : Key) (l : List (Key × β)) (e : Key × β) :
    last k (l ++ [e]) = if e.1 = k then some e.2 else last k l := by
  unfold last
  rw [List.reverse_append, List.reverse_singleton, List.singleton_append, List.find?_cons]
  by_cases h : e.1 = k <;> simp [h]

/-- Sorted lists. -/
def Sorted {β : Type} (m : List (Key × β)) : Prop := m.Pairwise fun a b => lexLt a.1 b.1 = true

theorem assign_spec {β : Type} (k : Key) (v : β) : ∀ (m : List (Key × β)), NoTwins (k :: m.map (·.1)) → Sorted m →
    Sorted (assign k v m) ∧ ∀ k' v', (k', v') ∈ assign k v m ↔ if k' = k then v' = v else (k', v') ∈ m
  | [], _, _ => by
    refine ⟨by simp [assign, Sorted], ?_⟩
    intro k' v'
    by_cases h : k' = k <;> simp [assign, h]
  | (a, b) :: m, hn, hs => by
    have hL := lexLt_total
    have ha : keyLt a k = lexLt a k := keyLt_lex hn (by simp) (by simp)
    have hk : keyLt k a = lexLt k a := keyLt_lex hn (by simp) (by simp)
    have hs' := List.pairwise_cons.mp hs
    unfold assign
    rw [ha, hk]
    by_cases h1 : lexLt a k = true
    · rw [if_pos h1]
      have hn' : NoTwins (k :: m.map (·.1)) := by
        intro x hx y hy h
        refine hn x ?_ y ?_ h
        · rcases List.mem_cons.mp hx with h | h <;> simp_all
        · rcases List.mem_cons.mp hy with h | h <;> simp_all
      obtain ⟨i1, i2⟩ := assign_spec k v m hn' hs'.2
      have hak : a ≠ k := by intro e; rw [e, hL.irrefl] at h1; cases h1
      refine ⟨List.pairwise_cons.mpr ⟨?_, i1⟩, ?_⟩
      · rintro ⟨x, y⟩ hx
        have := (i2 x y).mp hx
        by_cases hxk : x = k
        · rw [hxk]; exact h1
        · rw [if_neg hxk] at this
          exact hs'.1 _ this
      · intro k' v'
        rw [List.mem_cons, i2]
        by_cases hkk : k' = k
        · subst hkk
          have : (k', v') ≠ (a, b) := fun e => hak (congrArg Prod.fst e).symm
          simp only [this, false_or, if_true]
        · simp [hkk]
    · rw [if_neg h1]
      by_cases h2 : lexLt k a = true
      · rw [if_pos h2]
        have hnot : ∀ v', (k, v') ∉ (a, b) :: m := by
          intro v' hm
          rcases List.mem_cons.mp hm with h | h
          · injection h with h; rw [h, hL.irrefl] at h2; cases h2
          · have := hs'.1 _ h
            exact h1 this
        refine ⟨List.pairwise_cons.mpr ⟨?_, hs⟩, ?_⟩
        · intro x hx
          rcases List.mem_cons.mp hx with h | h
          · rw [h]; exact h2
          · exact hL.trans _ _ _ h2 (hs'.1 _ h)
        · intro k' v'
          rw [List.mem_cons]
          by_cases hkk : k' = k
          · subst hkk; simp [hnot v']
          · simp [hkk]
      · rw [if_neg h2]
        have hak : a = k := by
          rcases hL.total a k with h | h | h
          · exact absurd h h1
          · exact h
          · exact absurd h h2
        subst hak
        refine ⟨List.pairwise_cons.mpr ⟨fun x hx => hs'.1 x hx, hs'.2⟩, ?_⟩
        intro k' v'
        rw [List.mem_cons]
        by_cases hkk : k' = a
        · subst hkk
          have : (k', v') ∉ m := by
            intro h; have := hs'.1 _ h; rw [hL.irrefl] at this; cases this
          simp [this]
        · simp [hkk]

theorem results_spec {β : Type} (all : List Key) (hn : NoTwins all) : ∀ (l done : List (Key × β)) (m : List (Key × β)),
    (∀ e ∈ done ++ l, e.1 ∈ all) → Sorted m → (∀ k v, (k, v) ∈ m ↔ last k done = some v) →
    Sorted (results m l) ∧ ∀ k v, (k, v) ∈ results m l ↔ last k (done ++ l) = some v
  | [], done, m, _, hs, hm => by rw [List.append_nil]; exact ⟨hs, hm⟩
  | (k, v) :: l, done, m, hall, hs, hm => by
    have hmem : ∀ e ∈ m, e.1 ∈ all := by
      rintro ⟨k', v'⟩ he
      have := (hm k' v').mp he
      unfold last at this
      rw [Option.map_eq_some_iff] at this
      obtain ⟨e, he1, he2⟩ := this
      have h1 := List.mem_of_find?_eq_some he1
      have h2 := List.find?_some he1
      simp at h2
      rw [← h2]
      exact hall e (by simp at h1; simp [h1])
    have hn' : NoTwins (k :: m.map (·.1)) := by
      intro x hx y hy h
      have hx' : ∀ z, z ∈ k :: m.map (·.1) → z ∈ all := by
        intro z hz
        rcases List.mem_cons.mp hz with h | h
        · rw [h]; exact hall (k, v) (by simp)
        · obtain ⟨e, he, rfl⟩ := List.mem_map.mp h; exact hmem e he
      exact hn x (hx' x hx) y (hx' y hy) h
    obtain ⟨h1, h2⟩ := assign_spec k v m hn' hs
    have := results_spec all hn l (done ++ [(k, v)]) (assign k v m) (by simpa using hall) h1 (by
      intro k' v'
      rw [h2, last_snoc]
      by_cases hk : k' = k
      · subst hk; simp [eq_comm]
      · have : ¬ k = k' := fun e => hk e.symm
        simp [hk, this, hm])
    simpa [results] using this

/-- **C217 (partial: no components that differ in the case of an instance only).** The results of a SetVariables request are collected
without mixing up names: whatever the components and variables of the items, in any order and with repetitions, there is exactly one
result for every component and variable that occurs, and it is that of the last item for it. -/
theorem C217_partial {β : Type} (l : List (Key × β)) (hn : NoTwins (l.map (·.1))) :
    (∀ k v, (k, v) ∈ results [] l ↔ last k l = some v) ∧ ((results [] l).map (·.1)).Nodup := by
  obtain ⟨h1, h2⟩ := results_spec (l.map (·.1)) hn l [] [] (by simpa using fun a b h => ⟨b, h⟩) (by simp [Sorted])
    (by simp [last])
  refine ⟨by simpa using h2, ?_⟩
  rw [List.Nodup, List.pairwise_map]
  refine List.Pairwise.imp ?_ h1
  intro a b h e
  rw [e, lexLt_total.irrefl] at h; cases h

/-- "A", "a", "Z" as texts. -/
example : ((results [] [(⟨⟨[67], some [65], none⟩, ⟨[86], none⟩⟩, 1), (⟨⟨[67], none, none⟩, ⟨[86], none⟩⟩, 2),
    (⟨⟨[67], some [65], none⟩, ⟨[86], none⟩⟩, 3)] : List (Key × Nat)).map (·.2)) = [2, 3] := by decide +kernel

example : NoTwins [⟨⟨[67], some [65], none⟩, ⟨[86], none⟩⟩, ⟨⟨[67], none, some ⟨1, none⟩⟩, ⟨[86], none⟩⟩] := by
  intro a ha b hb h
  simp only [List.mem_cons, List.not_mem_nil, or_false] at ha hb
  rcases ha with rfl | rfl <;> rcases hb with rfl | rfl <;> first | rfl | exact absurd h (by decide)

/-- **C217 violated.** The order of the items is not an order: with three instances "A", "Z", "a" of one component there are items each of
which is before the next, in a circle. The standard library requires a strict weak order, without which the behaviour is undefined. And
two items for the instances "A" and "a" of a component, which are two components for the device model, get one result. -/
theorem C217_violated :
    (∃ a b c : Key, keyLt a b = true ∧ keyLt b c = true ∧ keyLt c a = true) ∧
    (∃ a b : Key, compLt a.comp b.comp = true ∧ results [] [(a, 1), (b, 2)] = [(a, 2)]) :=
  ⟨⟨⟨⟨[67], some [65], none⟩, ⟨[87], none⟩⟩, ⟨⟨[67], some [90], none⟩, ⟨[86], none⟩⟩, ⟨⟨[67], some [97], none⟩, ⟨[86], none⟩⟩,
    by decide +kernel⟩,
   ⟨⟨⟨[67], some [65], none⟩, ⟨[86], none⟩⟩, ⟨⟨[67], some [97], none⟩, ⟨[86], none⟩⟩, by decide +kernel⟩⟩

/-! ## C218: look-up -/

/-- Same name if the case of letters is ignored. -/
def SameName (a b : Text) : Prop := a.map small = b.map small

/-- **C218 (partial: names as they are written in the device model).** A variable is found exactly if there is one with exactly this
component (name, instance, EVSE, connector) and this variable (name, instance), and it is that one. -/
theorem C218_partial {β : Type} (m : List (Key × β)) (hm : (m.map (·.1)).Nodup) (c : Component) (v : Variable) (x : β) :
    find m c v = some x ↔ (⟨c, v⟩, x) ∈ m := by
  have heq : ∀ e : Key × β, (!compLt e.1.comp c && !compLt c e.1.comp && !varLt e.1.var v && !varLt v e.1.var) = true ↔
      e.1 = ⟨c, v⟩ := by
    rintro ⟨⟨ec, ev⟩, y⟩
    simp only [Bool.and_eq_true, Bool.not_eq_true', Key.mk.injEq]
    constructor
    · rintro ⟨⟨⟨h1, h2⟩, h3⟩, h4⟩
      refine ⟨?_, ?_⟩
      · rcases compLt_total.total ec c with h | h | h
        · rw [h] at h1; cases h1
        · exact h
        · rw [h] at h2; cases h2
      · rcases varLt_total.total ev v with h | h | h
        · rw [h] at h3; cases h3
        · exact h
        · rw [h] at h4; cases h4
    · rintro ⟨rfl, rfl⟩
      simp [compLt_total.irrefl, varLt_total.irrefl]
  unfold find
  rw [Option.map_eq_some_iff]
  constructor
  · rintro ⟨e, he, rfl⟩
    have h1 := List.mem_of_find?_eq_some he
    have h2 : (!compLt e.1.comp c && !compLt c e.1.comp && !varLt e.1.var v && !varLt v e.1.var) = true := List.find?_some (p := fun e : Key × β => !compLt e.1.comp c && !compLt c e.1.comp && !varLt e.1.var v && !varLt v e.1.var) he
    have h2 := (heq e).mp h2
    rw [← h2]; exact h1
  · intro h
    cases hf : m.find? fun e => !compLt e.1.comp c && !compLt c e.1.comp && !varLt e.1.var v && !varLt v e.1.var with
    | none =>
      have := List.find?_eq_none.mp hf _ h
      exact absurd ((heq _).mpr rfl) this
    | some e =>
      have h1 := List.mem_of_find?_eq_some hf
      have h2 : (!compLt e.1.comp c && !compLt c e.1.comp && !varLt e.1.var v && !varLt v e.1.var) = true :=
        List.find?_some (p := fun e : Key × β => !compLt e.1.comp c && !compLt c e.1.comp && !varLt e.1.var v && !varLt v e.1.var) hf
      have h2 := (heq e).mp h2
      refine ⟨e, rfl, ?_⟩
      obtain ⟨k, y⟩ := e
      simp only at h2
      subst h2
      clear hf heq
      induction m with
      | nil => cases h
      | cons z m ih =>
        rw [List.map_cons, List.nodup_cons] at hm
        rcases List.mem_cons.mp h with h | h
        · rcases List.mem_cons.mp h1 with h1 | h1
          · rw [← h1] at h; injection h with _ h; exact h.symm
          · exact absurd (List.mem_map.mpr ⟨_, h1, by rw [← h]⟩) hm.1
        · rcases List.mem_cons.mp h1 with h1 | h1
          · exact absurd (List.mem_map.mpr ⟨_, h, by rw [← h1]⟩) hm.1
          · exact ih hm.2 h h1

/-- **C218 violated.** Names of components and variables are case-insensitive in OCPP. A request that writes a name of the device model
with other letters does not find the variable, whatever else is in the device model, unless it is there under this name too. -/
theorem C218_violated {β : Type} (m : List (Key × β)) (hm : (m.map (·.1)).Nodup) (k : Key) (x : β) (_hk : (k, x) ∈ m) (name : Text)
    (_hs : SameName name k.var.name) (hother : ∀ y, (⟨k.comp, ⟨name, k.var.inst⟩⟩, y) ∉ m) :
    find m k.comp ⟨name, k.var.inst⟩ = none := by
  cases h : find m k.comp ⟨name, k.var.inst⟩ with
  | none => rfl
  | some y => exact absurd ((C218_partial m hm _ _ y).mp h) (hother y)

/-- "Ab" and "AB". -/
example : [65, 98].map small = [65, 66].map small ∧ find [(⟨⟨[67], none, none⟩, ⟨[65, 66], none⟩⟩, 7)] ⟨[67], none, none⟩ ⟨[65, 98], none⟩ = none ∧
    find [(⟨⟨[67], none, none⟩, ⟨[65, 66], none⟩⟩, 7)] ⟨[67], none, none⟩ ⟨[65, 66], none⟩ = some 7 := by decide +kernel

end Verif.Keys
