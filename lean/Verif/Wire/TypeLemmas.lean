import Verif.Wire.TypeTables
import Verif.Wire.EnumTheorems

/-!
Lemmas for C106, C107: the general statements over any tables that pass the check `good`.
-/

namespace Verif.Wire

/-- The values of a list of members: in the order of declaration, each of its type, those that are not optional all there. -/
def Members (ty : Base → V → Prop) : List Field → List (String × V) → Prop
  | [], l => l = []
  | f :: fs, l =>
    (f.opt = true ∧ Members ty fs l) ∨
    (∃ v r, l = (f.name, v) :: r ∧ Members ty fs r ∧
      if f.vec then ∃ vs, v = .list vs ∧ ∀ x ∈ vs, ty f.base x else ty f.base v)

/-- The values of a type: texts within the length, integers of 32 bits, times with `okTime`, declared values of enumerations, structs with
`Members`. -/
def Typed (types : List TypeTable) (okTime : Int → Prop) : Nat → Base → V → Prop
  | 0, _, _ => False
  | n + 1, b, v => match b, v with
    | .str max, .str s => ∀ m, max = some m → s.utf8ByteSize ≤ m
    | .int, .int i => -2147483648 ≤ i ∧ i ≤ 2147483647
    | .num, .num _ => True
    | .bool, .bool _ => True
    | .json, .json _ => True
    | .time, .time t => okTime t
    | .enum e, .enum x => ∃ t, findEnum e = some t ∧ x ∈ t.decl
    | .struct s, .struct l => ∃ t, types.find? (fun t => t.name == s) = some t ∧ Members (Typed types okTime n) t.fields l
    | _, _ => False

/-- The expressions that convert a type to JSON and back. -/
def convOk : Base → Conv → Conv → Bool
  | .time, .time, .time => true
  | .enum e, .enum e1, .enum e2 => e == e1 && e == e2 && e != "v16.MessageType"
  | .str _, .plain, c => c == .plain || c == .lenient
  | .int, .plain, .plain => true
  | .num, .plain, .plain => true
  | .bool, .plain, .plain => true
  | .json, .plain, .plain => true
  | .struct _, .plain, .plain => true
  | _, _, _ => false

/-- The statements of `to_json` and `from_json` fit to the members and to each other. -/
def aligned : List Field → List Access → List Access → Bool
  | [], [], [] => true
  | f :: fs, a :: as, b :: bs =>
    a.member == f.name && b.member == f.name && a.key == b.key && a.opt == f.opt && b.opt == f.opt && convOk f.base a.conv b.conv &&
      aligned fs as bs
  | _, _, _ => false

/-- The check of a table. -/
def good (t : TypeTable) : Bool :=
  aligned t.fields t.toJ t.fromJ && decide (t.fields.map (·.name)).Nodup && decide (t.toJ.map (·.key)).Nodup

theorem allSome_map {α β : Type} {f : α → Option β} {g : β → Prop} {l : List α} (h : ∀ x ∈ l, ∃ y, f x = some y ∧ g y) :
    ∃ ys, allSome (l.map f) = some ys ∧ ∀ y ∈ ys, g y := by
  induction l with
  | nil => exact ⟨[], rfl, by simp⟩
  | cons x r ih =>
    obtain ⟨y, hy, hg⟩ := h x (List.mem_cons_self ..)
    obtain ⟨ys, hys, hgs⟩ := ih (fun z hz => h z (List.mem_cons_of_mem _ hz))
    refine ⟨y :: ys, by simp [allSome, hy, hys], ?_⟩
    intro z hz
    rcases List.mem_cons.mp hz with rfl | hz
    · exact hg
    · exact hgs z hz

/-- Elements converted one by one and back. -/
theorem allSome_trip {α β : Type} {f : α → Option β} {g : β → Option α} {l : List α} (h : ∀ x ∈ l, ∃ y, f x = some y ∧ g y = some x) :
    ∃ ys, allSome (l.map f) = some ys ∧ allSome (ys.map g) = some l := by
  induction l with
  | nil => exact ⟨[], rfl, rfl⟩
  | cons x r ih =>
    obtain ⟨y, hy, hg⟩ := h x (List.mem_cons_self ..)
    obtain ⟨ys, hys, hgs⟩ := ih (fun z hz => h z (List.mem_cons_of_mem _ hz))
    exact ⟨y :: ys, by simp [allSome, hy, hys], by simp [allSome, hg, hgs]⟩

theorem allSome_mem {α β : Type} {f : α → Option β} {l : List α} {ys : List β} (h : allSome (l.map f) = some ys) :
    ∀ y ∈ ys, ∃ x ∈ l, f x = some y := by
  induction l generalizing ys with
  | nil => simp [allSome] at h; subst h; simp
  | cons x r ih =>
    cases hf : f x with
    | none => simp [allSome, hf] at h
    | some y =>
      simp only [List.map_cons, hf, allSome, Option.map_eq_some_iff] at h
      obtain ⟨zs, hz, rfl⟩ := h
      intro w hw
      rcases List.mem_cons.mp hw with rfl | hw
      · exact ⟨x, List.mem_cons_self .., hf⟩
      · obtain ⟨x', hx', hf'⟩ := ih hz w hw
        exact ⟨x', List.mem_cons_of_mem _ hx', hf'⟩

theorem get_none {α : Type} {l : List (String × α)} {k : String} (h : k ∉ l.map (·.1)) : get l k = none := by
  induction l with
  | nil => rfl
  | cons p r ih =>
    obtain ⟨a, b⟩ := p
    simp only [List.map_cons, List.mem_cons, not_or] at h
    have : ¬ a = k := fun e => h.1 e.symm
    simp only [get, if_neg this]
    exact ih h.2

theorem get_mem {α : Type} {l : List (String × α)} {k : String} {v : α} (h : get l k = some v) : (k, v) ∈ l := by
  induction l with
  | nil => simp [get] at h
  | cons p r ih =>
    obtain ⟨a, b⟩ := p
    by_cases e : a = k
    · subst e; simp [get] at h; subst h; exact List.mem_cons_self ..
    · simp [get, e] at h; exact List.mem_cons_of_mem _ (ih h)

/-- A member of a list without repetition is the one found by its name. -/
theorem find_name {l : List Field} (h : (l.map (·.name)).Nodup) {f : Field} (hf : f ∈ l) : l.find? (fun g => g.name == f.name) = some f := by
  induction l with
  | nil => simp at hf
  | cons g r ih =>
    simp only [List.map_cons, List.nodup_cons] at h
    rcases List.mem_cons.mp hf with rfl | hf
    · simp
    · have hne : g.name ≠ f.name := fun e => h.1 (e ▸ List.mem_map.mpr ⟨f, hf, rfl⟩)
      rw [List.find?_cons_of_neg (by simpa using hne)]
      exact ih h.2 hf

theorem Members.names {ty : Base → V → Prop} {fs : List Field} {l : List (String × V)} (h : Members ty fs l) :
    ∀ k ∈ l.map (·.1), k ∈ fs.map (·.name) := by
  induction fs generalizing l with
  | nil => simp only [Members] at h; subst h; simp
  | cons f fs ih =>
    simp only [Members] at h
    rcases h with ⟨_, h⟩ | ⟨v, r, rfl, h, _⟩
    · intro k hk; exact List.mem_cons_of_mem _ (ih h k hk)
    · intro k hk
      simp only [List.map_cons, List.mem_cons] at hk ⊢
      rcases hk with rfl | hk
      · exact Or.inl rfl
      · exact Or.inr (ih h k hk)

/-- A member is converted and back. -/
theorem val_trip {e : Conv → Base → V → Option J} {d : Conv → Base → J → Option V} {ty : Base → V → Prop} {f : Field} {a b : Access} {v : V}
    (hc : convOk f.base a.conv b.conv = true)
    (ih : ∀ c c' b v, convOk b c c' = true → ty b v → ∃ j, e c b v = some j ∧ d c' b j = some v)
    (hv : if f.vec then ∃ vs, v = .list vs ∧ ∀ x ∈ vs, ty f.base x else ty f.base v) :
    ∃ j, encVal e a f v = some j ∧ decVal d b f j = some v := by
  unfold encVal decVal
  by_cases h : f.vec
  · simp only [h, if_true] at hv ⊢
    obtain ⟨vs, rfl, hvs⟩ := hv
    obtain ⟨ys, h1, h2⟩ := allSome_trip (f := e a.conv f.base) (g := d b.conv f.base) (l := vs) (fun x hx => ih _ _ _ _ hc (hvs x hx))
    refine ⟨.arr ys, by simp [h1], ?_⟩
    by_cases hl : b.loop <;> simp [hl, J.items, h2]
  · simp only [h, Bool.false_eq_true, if_false] at hv ⊢
    exact ih _ _ _ _ hc hv

/-- The statements one after the other. -/
theorem members_trip {e : Conv → Base → V → Option J} {d : Conv → Base → J → Option V} {ty : Base → V → Prop} {FS : List Field}
    {L : List (String × V)}
    (ih : ∀ c c' b v, convOk b c c' = true → ty b v → ∃ j, e c b v = some j ∧ d c' b j = some v)
    {fs : List Field} {as bs : List Access} {l : List (String × V)}
    (hal : aligned fs as bs = true) (hn : (fs.map (·.name)).Nodup) (hk : (as.map (·.key)).Nodup) (hm : Members ty fs l)
    (hF : ∀ f ∈ fs, FS.find? (fun g => g.name == f.name) = some f) (hL : ∀ f ∈ fs, get L f.name = get l f.name) :
    ∃ ps, allSome (as.map (encMember e FS L)) = some ps ∧ (∀ k ∈ ps.flatten.map (·.1), k ∈ as.map (·.key)) ∧
      ∀ jl : List (String × J), (∀ a ∈ as, get jl a.key = get ps.flatten a.key) →
        ∃ qs, allSome (bs.map (decMember d FS (.obj jl))) = some qs ∧ qs.flatten = l := by
  induction fs generalizing as bs l with
  | nil =>
    match as, bs, hal with
    | [], [], _ =>
      simp only [Members] at hm
      subst hm
      exact ⟨[], rfl, by simp, fun jl _ => ⟨[], rfl, rfl⟩⟩
  | cons f fs ihf =>
    match as, bs, hal with
    | a :: as, b :: bs, hal =>
      simp only [aligned, Bool.and_eq_true, beq_iff_eq] at hal
      obtain ⟨⟨⟨⟨⟨⟨ham, hbm⟩, hkey⟩, hao⟩, hbo⟩, hc⟩, hal⟩ := hal
      simp only [List.map_cons, List.nodup_cons] at hn hk
      have hff := hF f (List.mem_cons_self ..)
      have hLf := hL f (List.mem_cons_self ..)
      simp only [Members] at hm
      rcases hm with ⟨ho, hm⟩ | ⟨v, r, rfl, hm, hv⟩
      · obtain ⟨ps, h1, h2, h3⟩ := ihf hal hn.2 hk.2 hm (fun g hg => hF g (List.mem_cons_of_mem _ hg)) (fun g hg => hL g (List.mem_cons_of_mem _ hg))
        have hnone : get l f.name = none := get_none (fun hk' => hn.1 (hm.names _ hk'))
        have he : encMember e FS L a = some [] := by
          unfold encMember; rw [ham, hff]; simp only [hLf, hnone]; rw [hao, ho]; rfl
        refine ⟨[] :: ps, by simp [allSome, he, h1], ?_, ?_⟩
        · intro k hk'
          simp only [List.flatten_cons, List.nil_append] at hk'
          exact List.mem_cons_of_mem _ (h2 k hk')
        · intro jl hjl
          obtain ⟨qs, hq, hq'⟩ := h3 jl (fun x hx => by simpa using hjl x (List.mem_cons_of_mem _ hx))
          have hg : get jl b.key = none := by
            have := hjl a (List.mem_cons_self ..)
            rw [← hkey, this]
            simp only [List.flatten_cons, List.nil_append]
            exact get_none (fun hk' => hk.1 (h2 _ hk'))
          have hd : decMember d FS (.obj jl) b = some [] := by
            unfold decMember; rw [hbm, hff]; simp only [J.get, hg, hbo, ho, if_true]
          exact ⟨[] :: qs, by simp [allSome, hd, hq], by simpa using hq'⟩
      · have hne : ∀ g ∈ fs, f.name ≠ g.name := fun g hg e => hn.1 (e ▸ List.mem_map.mpr ⟨g, hg, rfl⟩)
        obtain ⟨ps, h1, h2, h3⟩ := ihf hal hn.2 hk.2 hm (fun g hg => hF g (List.mem_cons_of_mem _ hg))
          (fun g hg => by rw [hL g (List.mem_cons_of_mem _ hg)]; simp [get, hne g hg])
        obtain ⟨j, hj, hj'⟩ := val_trip hc ih hv
        have hget : get L f.name = some v := by rw [hLf]; simp [get]
        have he : encMember e FS L a = some [(a.key, j)] := by
          unfold encMember; rw [ham, hff]; simp only [hget, hj, Option.map_some]
        refine ⟨[(a.key, j)] :: ps, by simp [allSome, he, h1], ?_, ?_⟩
        · intro k hk'
          simp only [List.flatten_cons, List.cons_append, List.nil_append, List.map_cons, List.mem_cons] at hk' ⊢
          rcases hk' with rfl | hk'
          · exact Or.inl rfl
          · exact Or.inr (h2 k hk')
        · intro jl hjl
          obtain ⟨qs, hq, hq'⟩ := h3 jl (fun x hx => by
            have hx' : a.key ≠ x.key := fun e => hk.1 (e ▸ List.mem_map.mpr ⟨x, hx, rfl⟩)
            have := hjl x (List.mem_cons_of_mem _ hx)
            simpa [get, hx'] using this)
          have hg : get jl b.key = some j := by
            have := hjl a (List.mem_cons_self ..)
            rw [← hkey, this]
            simp [get]
          have hd : decMember d FS (.obj jl) b = some [(f.name, v)] := by
            unfold decMember; rw [hbm, hff]; simp only [J.get, hg, hj', Option.map_some]
          exact ⟨[(f.name, v)] :: qs, by simp [allSome, hd, hq], by simpa using hq'⟩

theorem arrange_eq {ty : Base → V → Prop} {L : List (String × V)} {fs : List Field} {l : List (String × V)} (hn : (fs.map (·.name)).Nodup)
    (hm : Members ty fs l) (hL : ∀ f ∈ fs, get L f.name = get l f.name) : arrange fs L = some l := by
  unfold arrange
  induction fs generalizing l with
  | nil => simp only [Members] at hm; subst hm; rfl
  | cons f fs ih =>
    simp only [List.map_cons, List.nodup_cons] at hn
    have hLf := hL f (List.mem_cons_self ..)
    simp only [Members] at hm
    rcases hm with ⟨ho, hm⟩ | ⟨v, r, rfl, hm, hv⟩
    · have := ih hn.2 hm (fun g hg => hL g (List.mem_cons_of_mem _ hg))
      have hnone : get l f.name = none := get_none (fun hk' => hn.1 (hm.names _ hk'))
      simp only [Option.map_eq_some_iff] at this ⊢
      obtain ⟨ps, h1, h2⟩ := this
      exact ⟨[] :: ps, by simp [allSome, arrangeOne, hLf, hnone, ho, h1], by simpa using h2⟩
    · have hne : ∀ g ∈ fs, f.name ≠ g.name := fun g hg e => hn.1 (e ▸ List.mem_map.mpr ⟨g, hg, rfl⟩)
      have := ih hn.2 hm (fun g hg => by rw [hL g (List.mem_cons_of_mem _ hg)]; simp [get, hne g hg])
      have hget : get L f.name = some v := by rw [hLf]; simp [get]
      simp only [Option.map_eq_some_iff] at this ⊢
      obtain ⟨ps, h1, h2⟩ := this
      exact ⟨[(f.name, v)] :: ps, by simp [allSome, arrangeOne, hget, h1], by simp [h2]⟩

theorem wrap_eq {i : Int} (h : -2147483648 ≤ i ∧ i ≤ 2147483647) : wrap i = i := by
  unfold wrap; omega

theorem wrap_range (i : Int) : -2147483648 ≤ wrap i ∧ wrap i ≤ 2147483647 := by
  unfold wrap; omega

theorem truncate_range {q : Rat} {i : Int} (h : truncate q = some i) : -2147483648 ≤ i ∧ i ≤ 2147483647 := by
  unfold truncate at h
  generalize (if q < 0 then -((-q).floor) else q.floor) = k at h
  by_cases hk : -2147483648 ≤ k ∧ k ≤ 2147483647
  · simp only [hk, and_self, if_true, Option.some.injEq] at h; subst h; exact hk
  · simp [hk] at h

theorem findEnum_mem {e : String} {t : EnumTable} (h : findEnum e = some t) : t ∈ enums ∧ t.name = e := by
  unfold findEnum at h
  exact ⟨List.mem_of_find?_eq_some h, by simpa using List.find?_some h⟩

theorem text_eq {max : Option Nat} {s : String} (h : ∀ m, max = some m → s.utf8ByteSize ≤ m) : text max s = some (.str s) := by
  unfold text
  cases max with
  | none => rfl
  | some m => simp [h m rfl]

/-- Round trip over tables that pass the check. -/
theorem trip {types : List TypeTable} {tm : Times} {dump : J → String} {okTime : Int → Prop}
    (ht : ∀ t, okTime t → tm.read (tm.write t) = some t) (hg : ∀ t ∈ types, good t = true) (n : Nat) :
    ∀ c c' b v, convOk b c c' = true → Typed types okTime n b v → ∃ j, enc types tm n c b v = some j ∧ dec types tm dump n c' b j = some v := by
  induction n with
  | zero => intro c c' b v _ h; exact h.elim
  | succ n ih =>
    intro c c' b v hc hv
    cases b with
    | str max =>
      cases c <;> simp only [convOk, Bool.false_eq_true] at hc
      cases v <;> simp only [Typed] at hv
      rename_i s
      cases c' <;> simp at hc <;> exact ⟨.str s, rfl, text_eq hv⟩
    | int =>
      cases c <;> cases c' <;> simp only [convOk, Bool.false_eq_true] at hc
      cases v <;> simp only [Typed] at hv
      rename_i i
      exact ⟨.int i, rfl, by simp [dec, wrap_eq hv]⟩
    | num =>
      cases c <;> cases c' <;> simp only [convOk, Bool.false_eq_true] at hc
      cases v <;> simp only [Typed] at hv
      exact ⟨_, rfl, rfl⟩
    | bool =>
      cases c <;> cases c' <;> simp only [convOk, Bool.false_eq_true] at hc
      cases v <;> simp only [Typed] at hv
      exact ⟨_, rfl, rfl⟩
    | json =>
      cases c <;> cases c' <;> simp only [convOk, Bool.false_eq_true] at hc
      cases v <;> simp only [Typed] at hv
      exact ⟨_, rfl, rfl⟩
    | time =>
      cases c <;> cases c' <;> simp only [convOk, Bool.false_eq_true] at hc
      cases v <;> simp only [Typed] at hv
      exact ⟨_, rfl, by simp [dec, ht _ hv]⟩
    | enum e =>
      cases c <;> cases c' <;> simp only [convOk, Bool.false_eq_true, Bool.and_eq_true, beq_iff_eq, bne_iff_ne] at hc
      obtain ⟨⟨rfl, rfl⟩, hne⟩ := hc
      cases v <;> simp only [Typed] at hv
      rename_i x
      obtain ⟨t, hf, hx⟩ := hv
      obtain ⟨hmem, hname⟩ := findEnum_mem hf
      obtain ⟨s, hw, hr⟩ := (C49_partial t hmem (hname ▸ hne)).written x hx
      exact ⟨.str s, by simp [enc, hf, hw], by simp [dec, hf, hr]⟩
    | struct s =>
      cases c <;> cases c' <;> simp only [convOk, Bool.false_eq_true] at hc
      cases v <;> simp only [Typed] at hv
      rename_i l
      obtain ⟨t, hf, hm⟩ := hv
      have hgt := hg t (List.mem_of_find?_eq_some hf)
      simp only [good, Bool.and_eq_true, decide_eq_true_eq] at hgt
      obtain ⟨⟨hal, hn⟩, hk⟩ := hgt
      obtain ⟨ps, h1, _, h3⟩ := members_trip (e := enc types tm n) (d := dec types tm dump n) (FS := t.fields) (L := l) ih hal hn hk hm
        (fun f hf => find_name hn hf) (fun _ _ => rfl)
      obtain ⟨qs, hq, hq'⟩ := h3 ps.flatten (fun _ _ => rfl)
      refine ⟨.obj ps.flatten, by simp [enc, hf, h1], ?_⟩
      simp only [dec, hf, hq, hq', arrange_eq hn hm (fun _ _ => rfl), Option.map_some]

/-- The members assigned are of their types. -/
theorem arrange_members {ty : Base → V → Prop} {L l : List (String × V)} {fs : List Field}
    (hty : ∀ f ∈ fs, ∀ v, get L f.name = some v → if f.vec then ∃ vs, v = .list vs ∧ ∀ x ∈ vs, ty f.base x else ty f.base v)
    (hreq : ∀ f ∈ fs, f.opt = false → get L f.name ≠ none) (h : arrange fs L = some l) : Members ty fs l := by
  unfold arrange at h
  induction fs generalizing l with
  | nil => simp [allSome] at h; subst h; rfl
  | cons f fs ih =>
    simp only [List.map_cons, Option.map_eq_some_iff] at h
    obtain ⟨ps, h1, rfl⟩ := h
    have hrec : ∀ ps', allSome (fs.map (arrangeOne L)) = some ps' → Members ty fs ps'.flatten := fun ps' hps =>
      ih (fun g hg => hty g (List.mem_cons_of_mem _ hg)) (fun g hg => hreq g (List.mem_cons_of_mem _ hg)) (by rw [hps]; rfl)
    cases hg : get L f.name with
    | none =>
      by_cases ho : f.opt
      · simp only [arrangeOne, hg, ho, if_true, allSome, Option.map_eq_some_iff] at h1
        obtain ⟨ps', hps, rfl⟩ := h1
        exact Or.inl ⟨ho, by simpa using hrec ps' hps⟩
      · exact absurd hg (hreq f (List.mem_cons_self ..) (by simpa using ho))
    | some v =>
      simp only [arrangeOne, hg, allSome, Option.map_eq_some_iff] at h1
      obtain ⟨ps', hps, rfl⟩ := h1
      exact Or.inr ⟨v, ps'.flatten, by simp, hrec ps' hps, hty f (List.mem_cons_self ..) v hg⟩

theorem text_typed {max : Option Nat} {s : String} {v : V} (h : text max s = some v) :
    ∃ s, v = .str s ∧ ∀ m, max = some m → s.utf8ByteSize ≤ m := by
  unfold text at h
  cases max with
  | none => simp at h; exact ⟨s, h.symm, by simp⟩
  | some m =>
    by_cases hm : s.utf8ByteSize ≤ m
    · simp [hm] at h; exact ⟨s, h.symm, by simpa using hm⟩
    · simp [hm] at h

theorem aligned_from {fs : List Field} {as bs : List Access} (h : aligned fs as bs = true) :
    ∀ b ∈ bs, ∃ f ∈ fs, b.member = f.name ∧ ∃ c, convOk f.base c b.conv = true := by
  induction fs generalizing as bs with
  | nil =>
    match as, bs, h with
    | [], [], _ => simp
  | cons f fs ih =>
    match as, bs, h with
    | a :: as, b :: bs, h =>
      simp only [aligned, Bool.and_eq_true, beq_iff_eq] at h
      obtain ⟨⟨⟨⟨⟨⟨_, hbm⟩, _⟩, _⟩, _⟩, hc⟩, h⟩ := h
      intro x hx
      rcases List.mem_cons.mp hx with rfl | hx
      · exact ⟨f, List.mem_cons_self .., hbm, a.conv, hc⟩
      · obtain ⟨g, hg, h'⟩ := ih h x hx
        exact ⟨g, List.mem_cons_of_mem _ hg, h'⟩

theorem aligned_fields {fs : List Field} {as bs : List Access} (h : aligned fs as bs = true) :
    ∀ f ∈ fs, ∃ b ∈ bs, b.member = f.name ∧ b.opt = f.opt := by
  induction fs generalizing as bs with
  | nil => simp
  | cons f fs ih =>
    match as, bs, h with
    | a :: as, b :: bs, h =>
      simp only [aligned, Bool.and_eq_true, beq_iff_eq] at h
      obtain ⟨⟨⟨⟨⟨⟨_, hbm⟩, _⟩, _⟩, hbo⟩, _⟩, h⟩ := h
      intro x hx
      rcases List.mem_cons.mp hx with rfl | hx
      · exact ⟨b, List.mem_cons_self .., hbm, hbo⟩
      · obtain ⟨g, hg, h'⟩ := ih h x hx
        exact ⟨g, List.mem_cons_of_mem _ hg, h'⟩

theorem get_ne_none {α : Type} {l : List (String × α)} {k : String} {v : α} (h : (k, v) ∈ l) : get l k ≠ none := by
  induction l with
  | nil => simp at h
  | cons p r ih =>
    obtain ⟨a, b⟩ := p
    by_cases e : a = k
    · simp [get, e]
    · simp only [get, if_neg e]
      rcases List.mem_cons.mp h with h | h
      · simp only [Prod.mk.injEq] at h; exact absurd h.1.symm e
      · exact ih h

theorem allSome_all {α β : Type} {f : α → Option β} {l : List α} {ys : List β} (h : allSome (l.map f) = some ys) :
    ∀ x ∈ l, ∃ y ∈ ys, f x = some y := by
  induction l generalizing ys with
  | nil => simp
  | cons x r ih =>
    cases hf : f x with
    | none => simp [allSome, hf] at h
    | some y =>
      simp only [List.map_cons, hf, allSome, Option.map_eq_some_iff] at h
      obtain ⟨zs, hz, rfl⟩ := h
      intro w hw
      rcases List.mem_cons.mp hw with rfl | hw
      · exact ⟨y, List.mem_cons_self .., hf⟩
      · obtain ⟨x', hx', hf'⟩ := ih hz w hw
        exact ⟨x', List.mem_cons_of_mem _ hx', hf'⟩

/-- Whatever is read is of its type. -/
theorem dec_typed {types : List TypeTable} {tm : Times} {dump : J → String} {okTime : Int → Prop}
    (ht : ∀ s t, tm.read s = some t → okTime t) (hg : ∀ t ∈ types, good t = true) (n : Nat) :
    ∀ c c' b j v, convOk b c c' = true → dec types tm dump n c' b j = some v → Typed types okTime n b v := by
  induction n with
  | zero => intro c c' b j v _ h; simp [dec] at h
  | succ n ih =>
    intro c c' b j v hc h
    cases b with
    | str max =>
      cases c <;> simp only [convOk, Bool.false_eq_true] at hc
      have key : ∃ s, v = .str s ∧ ∀ m, max = some m → s.utf8ByteSize ≤ m := by
        cases c' <;> simp at hc <;> cases j <;> simp only [dec] at h <;> first | exact text_typed h | simp at h
      obtain ⟨s, rfl, hs⟩ := key
      exact hs
    | int =>
      cases c <;> cases c' <;> simp only [convOk, Bool.false_eq_true] at hc
      cases j <;> simp only [dec, Option.some.injEq, reduceCtorEq, Option.map_eq_some_iff] at h
      · subst h; simp only [Typed]; split <;> simp
      · subst h; exact wrap_range _
      · obtain ⟨i, hi, rfl⟩ := h
        exact truncate_range hi
    | num =>
      cases c <;> cases c' <;> simp only [convOk, Bool.false_eq_true] at hc
      cases j <;> simp only [dec, Option.some.injEq, reduceCtorEq] at h <;> subst h <;> trivial
    | bool =>
      cases c <;> cases c' <;> simp only [convOk, Bool.false_eq_true] at hc
      cases j <;> simp only [dec, Option.some.injEq, reduceCtorEq] at h <;> subst h <;> trivial
    | json =>
      cases c <;> cases c' <;> simp only [convOk, Bool.false_eq_true] at hc
      simp only [dec, Option.some.injEq] at h
      subst h; trivial
    | time =>
      cases c <;> cases c' <;> simp only [convOk, Bool.false_eq_true] at hc
      cases j <;> simp only [dec, Option.map_eq_some_iff, reduceCtorEq] at h
      obtain ⟨t, hr, rfl⟩ := h
      exact ht _ _ hr
    | enum e =>
      cases c <;> cases c' <;> simp only [convOk, Bool.false_eq_true, Bool.and_eq_true, beq_iff_eq, bne_iff_ne] at hc
      obtain ⟨⟨rfl, rfl⟩, hne⟩ := hc
      cases j <;> simp only [dec, if_true, Option.bind_eq_some_iff, Option.map_eq_some_iff, reduceCtorEq] at h
      obtain ⟨t, hf, x, hr, rfl⟩ := h
      obtain ⟨hmem, hname⟩ := findEnum_mem hf
      exact ⟨t, hf, ((C49_partial t hmem (hname ▸ hne)).read _ _ hr).1⟩
    | struct s =>
      cases c <;> cases c' <;> simp only [convOk, Bool.false_eq_true] at hc
      simp only [dec] at h
      cases hf : types.find? (fun t => t.name == s) with
      | none => simp [hf] at h
      | some t =>
        simp only [hf] at h
        cases ha : allSome (t.fromJ.map (decMember (dec types tm dump n) t.fields j)) with
        | none => simp [ha] at h
        | some ps =>
          simp only [ha, Option.map_eq_some_iff] at h
          obtain ⟨l, hl, rfl⟩ := h
          have hgt := hg t (List.mem_of_find?_eq_some hf)
          simp only [good, Bool.and_eq_true, decide_eq_true_eq] at hgt
          obtain ⟨⟨hal, hn⟩, _⟩ := hgt
          have hreq : ∀ f ∈ t.fields, f.opt = false → get ps.flatten f.name ≠ none := by
            intro f hff hopt
            obtain ⟨b, hb, hbm, hbo⟩ := aligned_fields hal f hff
            obtain ⟨p, hp, hdm⟩ := allSome_all ha b hb
            unfold decMember at hdm
            rw [hbm, find_name hn hff] at hdm
            simp only [hbo, hopt, Bool.false_eq_true, if_false] at hdm
            cases hj : j.get b.key with
            | none => simp [hj] at hdm
            | some x =>
              simp only [hj, Option.map_eq_some_iff] at hdm
              obtain ⟨w, _, rfl⟩ := hdm
              exact get_ne_none (List.mem_flatten.mpr ⟨_, hp, List.mem_singleton.mpr rfl⟩)
          refine ⟨t, hf, arrange_members ?_ hreq hl⟩
          intro f hff v hv
          obtain ⟨p, hp, hvp⟩ := List.mem_flatten.mp (get_mem hv)
          obtain ⟨b, hb, hdm⟩ := allSome_mem ha p hp
          obtain ⟨f', hf', hbm, c, hcv⟩ := aligned_from hal b hb
          unfold decMember at hdm
          rw [hbm, find_name hn hf'] at hdm
          simp only at hdm
          cases hj : j.get b.key with
          | none =>
            simp only [hj] at hdm
            split at hdm
            · simp only [Option.some.injEq] at hdm; subst hdm; simp at hvp
            · simp at hdm
          | some x =>
            simp only [hj, Option.map_eq_some_iff] at hdm
            obtain ⟨w, hw, rfl⟩ := hdm
            simp only [List.mem_singleton, Prod.mk.injEq] at hvp
            obtain ⟨hnm, rfl⟩ := hvp
            have : f = f' := by
              have h1 := find_name hn hff
              have h2 := find_name hn hf'
              rw [hnm, h2] at h1
              exact (Option.some.inj h1).symm
            subst this
            unfold decVal at hw
            by_cases hvec : f.vec
            · simp only [hvec, if_true] at hw ⊢
              by_cases hlp : b.loop
              · simp only [hlp, if_true, Option.map_eq_some_iff] at hw
                obtain ⟨vs, hvs, rfl⟩ := hw
                refine ⟨vs, rfl, fun y hy => ?_⟩
                obtain ⟨z, _, hz⟩ := allSome_mem hvs y hy
                exact ih _ _ _ _ _ hcv hz
              · simp only [hlp, Bool.false_eq_true, if_false] at hw
                cases x <;> simp only [reduceCtorEq, Option.map_eq_some_iff] at hw
                obtain ⟨vs, hvs, rfl⟩ := hw
                refine ⟨vs, rfl, fun y hy => ?_⟩
                obtain ⟨z, _, hz⟩ := allSome_mem hvs y hy
                exact ih _ _ _ _ _ hcv hz
            · simp only [hvec, Bool.false_eq_true, if_false] at hw ⊢
              exact ih _ _ _ _ _ hcv hw

end Verif.Wire
