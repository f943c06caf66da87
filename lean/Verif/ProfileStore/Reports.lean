import Verif.ProfileStore.Validate

/-! # Grouping of the reported profiles -/

set_option linter.unusedSimpArgs false
set_option linter.unusedVariables false

namespace Verif.PS

theorem distinct_mem {α : Type} [DecidableEq α] (l : List α) (a : α) : a ∈ distinct l ↔ a ∈ l := by
  induction l with
  | nil => simp [distinct]
  | cons b rest ih =>
    unfold distinct
    split
    · rename_i h
      rw [ih, List.mem_cons]
      constructor
      · exact .inr
      · rintro (rfl | h')
        · exact ih.1 h
        · exact h'
    · rw [List.mem_cons, List.mem_cons, ih]

theorem distinct_nodup {α : Type} [DecidableEq α] (l : List α) : (distinct l).Nodup := by
  induction l with
  | nil => simp [distinct]
  | cons b rest ih =>
    unfold distinct
    split
    · exact ih
    · rename_i h; exact List.nodup_cons.2 ⟨h, ih⟩

/-- Grouping by a key loses nothing and repeats nothing. -/
theorem group_perm {α κ : Type} [DecidableEq κ] (key : α → κ) (ks : List κ) (hn : ks.Nodup) (l : List α) (h : ∀ x ∈ l, key x ∈ ks) :
    (ks.flatMap fun k => l.filter (fun x => decide (key x = k))).Perm l := by
  induction ks generalizing l with
  | nil =>
    cases l with
    | nil => simp
    | cons a l => simpa using h a (by simp)
  | cons k ks ih =>
    rw [List.nodup_cons] at hn
    have hrest : (ks.flatMap fun k' => l.filter (fun x => decide (key x = k'))) =
        ks.flatMap fun k' => (l.filter (fun x => !decide (key x = k))).filter (fun x => decide (key x = k')) := by
      apply congrArg List.flatten
      apply List.map_congr_left
      intro k' hk'
      rw [List.filter_filter]
      apply List.filter_congr
      intro x _
      by_cases hx : key x = k'
      · have : k' ≠ k := fun e => hn.1 (e ▸ hk')
        simp [hx, this]
      · simp [hx]
    rw [List.flatMap_cons, hrest]
    have := ih hn.2 (l.filter (fun x => !decide (key x = k))) (by
      intro x hx
      obtain ⟨hx, hk⟩ := List.mem_filter.1 hx
      rcases List.mem_cons.1 (h x hx) with h | h
      · simp [h] at hk
      · exact h)
    exact (List.Perm.append_left _ this).trans (List.filter_append_perm (fun x => decide (key x = k)) l)

/-- Contents of a report. -/
def Report.items (r : Report) : List (Int × String × Profile) := r.profiles.map fun p => (r.evse, r.source, p)

theorem setTbc_items (l : List Report) : (setTbc l).flatMap Report.items = l.flatMap Report.items := by
  induction l with
  | nil => rfl
  | cons a rest ih =>
    cases rest with
    | nil => rfl
    | cons b rest => rw [setTbc, List.flatMap_cons, List.flatMap_cons, ih]; rfl; simp

theorem setTbc_map {β : Type} (f : Report → β) (hf : ∀ r t, f { r with tbc := t } = f r) (l : List Report) : (setTbc l).map f = l.map f := by
  induction l with
  | nil => rfl
  | cons a rest ih =>
    cases rest with
    | nil => simp [setTbc, hf]
    | cons b rest => rw [setTbc, List.map_cons, List.map_cons, ih, hf]; simp

theorem setTbc_tbc (l : List Report) : (setTbc l).map Report.tbc = (List.replicate (l.length - 1) true ++ List.replicate (min 1 l.length) false) := by
  induction l with
  | nil => rfl
  | cons a rest ih =>
    cases rest with
    | nil => rfl
    | cons b rest =>
      rw [setTbc, List.map_cons, ih]
      · simp [List.replicate_succ]
      · simp

/-- The reports before `tbc` is set. -/
def rawReports (rows : List Row) (q : Query) : List Report :=
  let sel := rows.filter q.selects
  (distinct (sel.map Row.evse)).flatMap fun e => (distinct (sel.map Row.source)).filterMap fun src =>
    let ps := (sel.filter (fun r => decide (r.evse = e) && ieq r.source src)).map Row.profile
    if ps.isEmpty then none else some ⟨e, src, ps, true⟩

theorem reports_eq (rows : List Row) (q : Query) : reports rows q = setTbc (rawReports rows q) := rfl

theorem items_filterMap (l : List String) (f : String → List Profile) (e : Int) :
    (l.filterMap fun src => if (f src).isEmpty then none else some (⟨e, src, f src, true⟩ : Report)).flatMap Report.items =
      l.flatMap fun src => (f src).map fun p => (e, src, p) := by
  induction l with
  | nil => rfl
  | cons a rest ih =>
    rw [List.filterMap_cons, List.flatMap_cons, ← ih]
    cases hf : f a with
    | nil => simp [hf]
    | cons x xs => simp [hf, Report.items]

theorem raw_items (rows : List Row) (q : Query) :
    (rawReports rows q).flatMap Report.items =
      (distinct ((rows.filter q.selects).map Row.evse)).flatMap fun e => (distinct ((rows.filter q.selects).map Row.source)).flatMap fun src =>
        (((rows.filter q.selects).filter (fun r => decide (r.evse = e) && ieq r.source src)).map Row.profile).map fun p => (e, src, p) := by
  unfold rawReports
  rw [List.flatMap_assoc]
  apply congrArg List.flatten
  apply List.map_congr_left
  intro e _
  exact items_filterMap _ (fun src => ((rows.filter q.selects).filter (fun r => decide (r.evse = e) && ieq r.source src)).map Row.profile) e

theorem ieq_refl (a : String) : ieq a a = true := by simp [ieq]

/-- Without sources that differ only in case every selected profile is reported exactly once. -/
theorem items_perm (rows : List Row) (q : Query) (hcase : ∀ a ∈ rows, ∀ b ∈ rows, ieq a.source b.source = true → a.source = b.source) :
    ((reports rows q).flatMap Report.items).Perm ((rows.filter q.selects).map fun r => (r.evse, r.source, r.profile)) := by
  rw [reports_eq, setTbc_items, raw_items]
  generalize hsel : rows.filter q.selects = sel
  have hsub : ∀ r ∈ sel, r ∈ rows := by intro r hr; rw [← hsel] at hr; exact (List.mem_filter.1 hr).1
  have h1 : ((distinct (sel.map Row.evse)).flatMap fun e => (distinct (sel.map Row.source)).flatMap fun src =>
        ((sel.filter (fun r => decide (r.evse = e) && ieq r.source src)).map Row.profile).map fun p => (e, src, p)) =
      ((distinct (sel.map Row.evse)).flatMap fun e => (distinct (sel.map Row.source)).flatMap fun src =>
        (sel.filter (fun r => decide (r.evse = e))).filter (fun r => decide (r.source = src))).map fun r => (r.evse, r.source, r.profile) := by
    rw [List.map_flatMap]
    apply congrArg List.flatten
    apply List.map_congr_left
    intro e _
    rw [List.map_flatMap]
    apply congrArg List.flatten
    apply List.map_congr_left
    intro src hsrc
    rw [List.map_map, List.filter_filter]
    obtain ⟨b, hb, rfl⟩ := List.mem_map.1 ((distinct_mem _ _).1 hsrc)
    have hf : sel.filter (fun r => decide (r.evse = e) && ieq r.source b.source) =
        sel.filter (fun r => decide (r.source = b.source) && decide (r.evse = e)) := by
      apply List.filter_congr
      intro r hr
      have hi : ieq r.source b.source = decide (r.source = b.source) := by
        by_cases h : r.source = b.source
        · rw [h, ieq_refl]; simp
        · have : ieq r.source b.source = false := by
            cases hx : ieq r.source b.source with
            | false => rfl
            | true => exact absurd (hcase r (hsub r hr) b (hsub b hb) hx) h
          rw [this]; simp [h]
      rw [hi, Bool.and_comm]
    rw [hf]
    apply List.map_congr_left
    intro r hr
    have := (List.mem_filter.1 hr).2
    simp only [Bool.and_eq_true, decide_eq_true_eq] at this
    simp [this.1, this.2]
  rw [h1]
  apply List.Perm.map
  have h2 : ∀ e, ((distinct (sel.map Row.source)).flatMap fun src => (sel.filter (fun r => decide (r.evse = e))).filter (fun r => decide (r.source = src))).Perm
      (sel.filter (fun r => decide (r.evse = e))) := by
    intro e
    apply group_perm Row.source _ (distinct_nodup _)
    intro x hx
    exact (distinct_mem _ _).2 (List.mem_map.2 ⟨x, (List.mem_filter.1 hx).1, rfl⟩)
  have h3 : ∀ es : List Int, (es.flatMap fun e => (distinct (sel.map Row.source)).flatMap fun src => (sel.filter (fun r => decide (r.evse = e))).filter (fun r => decide (r.source = src))).Perm
      (es.flatMap fun e => sel.filter (fun r => decide (r.evse = e))) := by
    intro es
    induction es with
    | nil => simp
    | cons e es ih => rw [List.flatMap_cons, List.flatMap_cons]; exact (h2 e).append ih
  refine (h3 _).trans ?_
  apply group_perm Row.evse _ (distinct_nodup _)
  intro x hx
  exact (distinct_mem _ _).2 (List.mem_map.2 ⟨x, hx, rfl⟩)

/-- Every report carries the EVSE of its profiles, a source that agrees up to case, and only selected rows. -/
theorem report_sound (rows : List Row) (q : Query) (i : Int × String × Profile) (h : i ∈ (reports rows q).flatMap Report.items) :
    ∃ r ∈ rows, q.selects r = true ∧ i.1 = r.evse ∧ ieq r.source i.2.1 = true ∧ i.2.2 = r.profile := by
  rw [reports_eq, setTbc_items, raw_items] at h
  simp only [List.mem_flatMap, List.mem_map, List.mem_filter, Bool.and_eq_true, decide_eq_true_eq] at h
  obtain ⟨e, _, src, _, p, ⟨r, ⟨⟨hr, hq⟩, h1, h2⟩, rfl⟩, rfl⟩ := h
  exact ⟨r, hr, hq, h1.symm, h2, rfl⟩

/-- Every selected row is reported. -/
theorem report_complete (rows : List Row) (q : Query) (r : Row) (hr : r ∈ rows) (hq : q.selects r = true) :
    (r.evse, r.source, r.profile) ∈ (reports rows q).flatMap Report.items := by
  rw [reports_eq, setTbc_items, raw_items]
  simp only [List.mem_flatMap, List.mem_map, List.mem_filter, Bool.and_eq_true, decide_eq_true_eq, distinct_mem]
  exact ⟨r.evse, ⟨r, ⟨hr, hq⟩, rfl⟩, r.source, ⟨r, ⟨hr, hq⟩, rfl⟩, r.profile, ⟨r, ⟨⟨hr, hq⟩, rfl, ieq_refl _⟩, rfl⟩, rfl⟩

theorem raw_nonempty (rows : List Row) (q : Query) : ∀ r ∈ rawReports rows q, r.profiles ≠ [] := by
  intro r hr
  unfold rawReports at hr
  simp only [List.mem_flatMap, List.mem_filterMap] at hr
  obtain ⟨e, _, src, _, h⟩ := hr
  split at h
  · cases h
  · rename_i hn
    injection h with h
    subst h
    simpa using hn

theorem raw_keys (rows : List Row) (q : Query) : ((rawReports rows q).map fun r => (r.evse, r.source)).Nodup := by
  unfold rawReports
  rw [List.map_flatMap]
  have hin : ∀ (e : Int) (f : String → List Profile) (l : List String), l.Nodup →
      ((l.filterMap fun src => if (f src).isEmpty then none else some (⟨e, src, f src, true⟩ : Report)).map fun r => (r.evse, r.source)).Nodup ∧
      ∀ k ∈ ((l.filterMap fun src => if (f src).isEmpty then none else some (⟨e, src, f src, true⟩ : Report)).map fun r => (r.evse, r.source)),
        k.1 = e ∧ k.2 ∈ l := by
    intro e f l hl
    induction l with
    | nil => simp
    | cons a l ih =>
      obtain ⟨i1, i2⟩ := ih (List.nodup_cons.1 hl).2
      rw [List.filterMap_cons]
      by_cases hf : (f a).isEmpty = true
      · simp only [hf, if_true]
        exact ⟨i1, fun k hk => ⟨(i2 k hk).1, List.mem_cons_of_mem _ (i2 k hk).2⟩⟩
      · simp only [hf, if_false, Bool.false_eq_true, List.map_cons]
        constructor
        · rw [List.nodup_cons]
          exact ⟨fun hk => (List.nodup_cons.1 hl).1 (i2 _ hk).2, i1⟩
        · intro k hk
          rcases List.mem_cons.1 hk with rfl | hk
          · exact ⟨rfl, by simp⟩
          · exact ⟨(i2 k hk).1, List.mem_cons_of_mem _ (i2 k hk).2⟩
  have hout : ∀ (g : Int → List (Int × String)) (es : List Int), es.Nodup → (∀ e, (g e).Nodup ∧ ∀ k ∈ g e, k.1 = e) → (es.flatMap g).Nodup := by
    intro g es hes hg
    induction es with
    | nil => simp
    | cons e es ih =>
      rw [List.flatMap_cons, List.nodup_append]
      refine ⟨(hg e).1, ih (List.nodup_cons.1 hes).2, ?_⟩
      intro a ha b hb hab
      subst hab
      obtain ⟨e', he', hb⟩ := List.mem_flatMap.1 hb
      have h1 := (hg e).2 a ha
      have h2 := (hg e').2 a hb
      exact (List.nodup_cons.1 hes).1 (h1 ▸ h2 ▸ he')
  apply hout _ _ (distinct_nodup _)
  intro e
  have := hin e (fun src => ((rows.filter q.selects).filter (fun r => decide (r.evse = e) && ieq r.source src)).map Row.profile)
    _ (distinct_nodup ((rows.filter q.selects).map Row.source))
  exact ⟨this.1, fun k hk => (this.2 k hk).1⟩

end Verif.PS
