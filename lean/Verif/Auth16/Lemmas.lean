import Verif.Auth16.Spec
set_option linter.constructorNameAsVariable false
namespace Verif.Auth16

theorem mem_of_get {t : Table} {k : Str} {i : Info} (h : get t k = some i) : (k, i) ∈ t := by
  unfold get at h
  cases hf : t.find? (fun r => r.1 == k) with
  | none => simp [hf] at h
  | some r =>
    simp only [hf, Option.map_some, Option.some.injEq] at h
    have h1 := List.find?_some hf
    have h2 := List.mem_of_find?_eq_some hf
    simp only [beq_iff_eq] at h1
    obtain ⟨a, b⟩ := r
    simp only at h h1
    subst h h1
    exact h2

theorem get_none {t : Table} {k : Str} : get t k = none ↔ ∀ i, (k, i) ∉ t := by
  unfold get
  rw [Option.map_eq_none_iff, List.find?_eq_none]
  constructor
  · intro h i hi
    exact h _ hi (by simp)
  · rintro h ⟨a, b⟩ hr he
    simp only [beq_iff_eq] at he
    subst he
    exact h b hr

theorem get_of_mem {t : Table} {k : Str} {i : Info} (hn : (t.map (·.1)).Nodup) (h : (k, i) ∈ t) :
    get t k = some i := by
  induction t with
  | nil => simp at h
  | cons r t ih =>
    obtain ⟨a, b⟩ := r
    simp only [List.map_cons, List.nodup_cons] at hn
    unfold get
    rw [List.find?_cons]
    by_cases ha : a = k
    · subst ha
      simp only [beq_self_eq_true, Option.map_some, Option.some.injEq]
      rcases List.mem_cons.mp h with h | h
      · injection h with _ h
        exact h.symm
      · exact absurd (List.mem_map.mpr ⟨_, h, rfl⟩) hn.1
    · have : (a == k) = false := by simpa using ha
      simp only [this]
      rcases List.mem_cons.mp h with h | h
      · injection h with h _
        exact absurd h.symm ha
      · exact ih hn.2 h

theorem get_del (t : Table) (k k' : Str) : get (del t k) k' = if k' = k then none else get t k' := by
  induction t with
  | nil => simp [get, del]
  | cons r t ih =>
    obtain ⟨a, b⟩ := r
    unfold del at ih ⊢
    rw [List.filter_cons]
    by_cases ha : a = k
    · subst ha
      simp only [bne_self_eq_false, Bool.false_eq_true, if_false, ih]
      by_cases hk : k' = a
      · simp [hk]
      · simp only [hk, if_false]
        unfold get
        rw [List.find?_cons]
        have : (a == k') = false := by simpa using fun h => hk h.symm
        simp [this]
    · have h1 : (a != k) = true := by simpa using ha
      simp only [h1, if_true]
      unfold get at ih ⊢
      rw [List.find?_cons, List.find?_cons]
      by_cases hk : a = k'
      · subst hk
        simp [ha]
      · have : (a == k') = false := by simpa using hk
        simp only [this]
        exact ih

theorem get_put (t : Table) (k k' : Str) (i : Info) :
    get (put t k i) k' = if k' = k then some i else get t k' := by
  have h := get_del t k k'
  unfold get at h ⊢
  unfold put
  rw [List.find?_append]
  by_cases hk : k' = k
  · subst hk
    simp only [if_true] at h ⊢
    rw [Option.map_eq_none_iff] at h
    simp [h]
  · simp only [hk, if_false] at h ⊢
    have : (k == k') = false := by simpa using fun h => hk h.symm
    simp [this, h]

theorem nodup_del {t : Table} (k : Str) (h : (t.map (·.1)).Nodup) : ((del t k).map (·.1)).Nodup :=
  h.sublist (List.Sublist.map _ List.filter_sublist)

theorem nodup_put {t : Table} (k : Str) (i : Info) (h : (t.map (·.1)).Nodup) :
    ((put t k i).map (·.1)).Nodup := by
  unfold put
  rw [List.map_append, List.nodup_append]
  refine ⟨nodup_del k h, by simp, ?_⟩
  intro a ha b hb
  simp only [List.map_cons, List.map_nil, List.mem_singleton] at hb
  subst hb
  rintro rfl
  obtain ⟨r, hr, rfl⟩ := List.mem_map.mp ha
  unfold del at hr
  have := (List.mem_filter.mp hr).2
  simp at this

theorem localAllowed_iff (cfg : Config) (env : Env) :
    localAllowed cfg env = true ↔ LocalPermitted cfg env := by
  unfold localAllowed LocalPermitted
  simp

/-- A row that was found accepted is in the table and fresh. -/
theorem readRow_accepted {t : Table} {k : Str} {now : Int} {a b : Bool} {i : Info} {t' : Table}
    (h : readRow t k now a b = (.found i, t')) (ha : i.status = .accepted) :
    (k, i) ∈ t ∧ Fresh i now ∧ t' = t := by
  unfold readRow at h
  cases a with
  | true => simp at h
  | false =>
    simp only [Bool.false_eq_true, if_false] at h
    cases hg : get t k with
    | none => simp [hg] at h
    | some j =>
      simp only [hg] at h
      cases he : j.expiry with
      | none =>
        simp only [he, Prod.mk.injEq, Read.found.injEq] at h
        obtain ⟨rfl, rfl⟩ := h
        exact ⟨mem_of_get hg, by intro e h; rw [he] at h; simp at h, rfl⟩
      | some e =>
        simp only [he] at h
        by_cases hc : j.status ≠ .expired ∧ e ≤ now
        · rw [if_pos hc] at h
          cases b with
          | true => simp at h
          | false =>
            simp only [Bool.false_eq_true, if_false, Prod.mk.injEq, Read.found.injEq] at h
            obtain ⟨rfl, _⟩ := h
            simp at ha
        · rw [if_neg hc] at h
          simp only [Prod.mk.injEq, Read.found.injEq] at h
          obtain ⟨rfl, rfl⟩ := h
          refine ⟨mem_of_get hg, ?_, rfl⟩
          intro e' h
          rw [he] at h
          injection h with h
          subst h
          rw [ha] at hc
          have : ¬ e ≤ now := fun h => hc ⟨by simp, h⟩
          omega

theorem readRow_not_found {t : Table} {k : Str} {now : Int} {b : Bool} (hb : b = false)
    (h : ∀ i t', readRow t k now false b ≠ (.found i, t')) : ∀ i, (k, i) ∉ t := by
  rw [← get_none]
  unfold readRow at h
  simp only [Bool.false_eq_true, if_false, hb] at h
  cases hg : get t k with
  | none => rfl
  | some j =>
    simp only [hg] at h
    cases he : j.expiry with
    | none =>
      simp only [he] at h
      exact absurd rfl (h _ _)
    | some e =>
      simp only [he] at h
      split at h
      · exact absurd rfl (h _ _)
      · exact absurd rfl (h _ _)

/-- A row read without failures. -/
theorem readRow_at {t : Table} {k : Str} {now : Int} {i : Info} (hg : get t k = some i) :
    (readRow t k now false false).1 = .found (i.at now) := by
  obtain ⟨st, ex, pa⟩ := i
  unfold readRow Info.at
  simp only [Bool.false_eq_true, if_false, hg]
  cases ex with
  | none => rfl
  | some e =>
    simp only
    by_cases h1 : e ≤ now
    · cases st <;> simp [h1]
    · simp [h1]

/-- How reading changes a table: nothing, or a row whose expiry date has passed is marked. -/
def Aged (times : List Int) (a b : Table) : Prop :=
  ∀ k, get b k = get a k ∨
    ∃ i e t, get a k = some i ∧ get b k = some { i with status := .expired } ∧ i.expiry = some e ∧
      t ∈ times ∧ e ≤ t

theorem Aged.refl (times : List Int) (a : Table) : Aged times a a := fun _ => .inl rfl

theorem Aged.trans {times : List Int} {a b c : Table} (h1 : Aged times a b) (h2 : Aged times b c) :
    Aged times a c := by
  intro k
  rcases h2 k with h2 | ⟨i, e, t, g1, g2, g3, g4, g5⟩
  · rcases h1 k with h1 | ⟨i, e, t, g1, g2, g3, g4, g5⟩
    · exact .inl (h2.trans h1)
    · exact .inr ⟨i, e, t, g1, h2.trans g2, g3, g4, g5⟩
  · rcases h1 k with h1 | ⟨i', e', t', g1', g2', g3', g4', g5'⟩
    · exact .inr ⟨i, e, t, h1 ▸ g1, g2, g3, g4, g5⟩
    · rw [g2'] at g1
      injection g1 with g1
      subst g1
      exact .inr ⟨i', e', t', g1', g2, g3', g4', g5'⟩

theorem Aged.put {times : List Int} {t : Table} {k : Str} {i : Info} {e now : Int}
    (hg : get t k = some i) (he : i.expiry = some e) (hn : now ∈ times) (h : e ≤ now) :
    Aged times t (put t k { i with status := .expired }) := by
  intro k'
  rw [get_put]
  by_cases hk : k' = k
  · subst hk
    exact .inr ⟨i, e, now, hg, by simp, he, hn, h⟩
  · exact .inl (by simp [hk])

theorem readRow_aged (times : List Int) (t : Table) (k : Str) (now : Int) (a b : Bool)
    (hn : now ∈ times) : Aged times t (readRow t k now a b).2 := by
  unfold readRow
  cases a with
  | true => exact .refl _ _
  | false =>
    simp only [Bool.false_eq_true, if_false]
    cases hg : get t k with
    | none => exact .refl _ _
    | some i =>
      simp only
      cases he : i.expiry with
      | none => exact .refl _ _
      | some e =>
        simp only
        split
        · rename_i hc
          cases b with
          | true => exact .refl _ _
          | false =>
            have := Aged.put hg he hn hc.2
            rw [he] at this
            simpa using this
        · exact .refl _ _

end Verif.Auth16
