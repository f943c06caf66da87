import Verif.Conn16.Spec

set_option linter.constructorNameAsVariable false

/-! # Lemmas about one state machine -/

namespace Verif.Conn16

theorem snoc_split {α : Type} {l p q : List α} {o x : α} :
    l ++ [o] = p ++ x :: q ↔ (q = [] ∧ l = p ∧ o = x) ∨ ∃ q', q = q' ++ [o] ∧ l = p ++ x :: q' := by
  constructor
  · intro h
    rcases List.eq_nil_or_concat q with hq | ⟨q', y, hq⟩
    · subst hq
      have := List.append_inj' h rfl
      simp at this
      exact Or.inl ⟨rfl, this.1, this.2⟩
    · subst hq
      right
      have h' : l ++ [o] = (p ++ x :: q') ++ [y] := by simpa using h
      have := List.append_inj' h' rfl
      simp at this
      obtain ⟨h1, h2⟩ := this
      subst h2
      exact ⟨q', by simp, h1⟩
  · rintro (⟨rfl, rfl, rfl⟩ | ⟨q', rfl, rfl⟩) <;> simp

theorem settled_nil (u : String) : Settled [] u := by
  intro p e q h; cases p <;> simp at h

theorem settled_snoc (ops : List FOp) (o : FOp) (u : String) :
    Settled (ops ++ [o]) u ↔ Clears o u ∨ (Settled ops u ∧ ¬ ∃ e, o = .error e ∧ e.uuid = u) := by
  constructor
  · intro h
    by_cases hc : Clears o u
    · exact Or.inl hc
    · right
      constructor
      · intro p e q hpq hu
        obtain ⟨o', ho', hcl⟩ := h p e (q ++ [o]) (by rw [hpq]; simp) hu
        rcases List.mem_append.1 ho' with h1 | h1
        · exact ⟨o', h1, hcl⟩
        · simp at h1; subst h1; exact absurd hcl hc
      · rintro ⟨e, rfl, he⟩
        obtain ⟨o', ho', _⟩ := h ops e [] (by simp) he
        simp at ho'
  · rintro (h | ⟨h, hn⟩)
    · intro p e q hpq hu
      rcases snoc_split.1 hpq with ⟨rfl, rfl, rfl⟩ | ⟨q', rfl, rfl⟩
      · rcases h with h | h <;> simp at h
      · exact ⟨o, by simp, h⟩
    · intro p e q hpq hu
      rcases snoc_split.1 hpq with ⟨rfl, rfl, rfl⟩ | ⟨q', rfl, rfl⟩
      · exact absurd ⟨e, rfl, hu⟩ hn
      · obtain ⟨o', ho', hcl⟩ := h p e q' rfl hu
        exact ⟨o', by simp [ho'], hcl⟩

theorem active_nil (e : Err) : ¬ Active [] e := by
  rintro ⟨p, q, h, _⟩; cases p <;> simp at h

theorem active_snoc (ops : List FOp) (o : FOp) (e : Err) :
    Active (ops ++ [o]) e ↔ (Active ops e ∧ ¬ Clears o e.uuid) ∨ (o = .error e ∧ Settled ops e.uuid) := by
  constructor
  · rintro ⟨p, q, hpq, hs, hq⟩
    rcases snoc_split.1 hpq with ⟨rfl, rfl, rfl⟩ | ⟨q', rfl, rfl⟩
    · exact Or.inr ⟨rfl, hs⟩
    · exact Or.inl ⟨⟨p, q', rfl, hs, fun o' h' => hq o' (by simp [h'])⟩, hq o (by simp)⟩
  · rintro (⟨⟨p, q, rfl, hs, hq⟩, hc⟩ | ⟨rfl, hs⟩)
    · refine ⟨p, q ++ [o], by simp, hs, ?_⟩
      intro o' h'
      rcases List.mem_append.1 h' with h1 | h1
      · exact hq o' h1
      · simp at h1; subst h1; exact hc
    · exact ⟨ops, [], by simp, hs, by simp⟩

theorem frun_snoc (m : Fsm) (ops : List FOp) (o : FOp) : frun m (ops ++ [o]) = (fstep (frun m ops) o).1 := by
  simp [frun]

/-- the errors after one input -/
theorem fstep_errors (m : Fsm) (o : FOp) (e : Err) :
    e ∈ (fstep m o).1.errors ↔
      (e ∈ m.errors ∧ ¬ Clears o e.uuid) ∨ (o = .error e ∧ ∀ x ∈ m.errors, x.uuid ≠ e.uuid) := by
  cases o with
  | event ev =>
    simp only [fstep]
    split <;> simp [Clears]
  | trigger => simp [fstep, Clears]
  | clearAll => simp [fstep, Clears]
  | error x =>
    simp only [fstep]
    by_cases h : m.errors.any (·.uuid == x.uuid) = true
    · rw [if_pos h]
      simp only [Clears, reduceCtorEq, or_self, not_false_eq_true, and_true, FOp.error.injEq]
      constructor
      · exact Or.inl
      · rintro (h1 | ⟨rfl, h1⟩)
        · exact h1
        · simp at h
          obtain ⟨y, hy, hu⟩ := h
          exact absurd hu (h1 y hy)
    · rw [if_neg h]
      simp only [List.any_eq_true, beq_iff_eq, not_exists, not_and] at h
      simp only [List.mem_append, List.mem_singleton, Clears, reduceCtorEq, or_self, not_false_eq_true,
        and_true, FOp.error.injEq]
      constructor
      · rintro (h1 | rfl)
        · exact Or.inl h1
        · exact Or.inr ⟨rfl, h⟩
      · rintro (h1 | ⟨rfl, _⟩)
        · exact Or.inl h1
        · exact Or.inr rfl
  | clear u =>
    simp only [fstep]
    by_cases h : (!m.errors.any (·.uuid == u)) = true
    · rw [if_pos h]
      simp at h
      simp only [Clears, FOp.clear.injEq, reduceCtorEq, or_false, false_and]
      constructor
      · intro h1; exact ⟨h1, fun h2 => h e h1 h2.symm⟩
      · exact fun h1 => h1.1
    · rw [if_neg h]
      simp only [List.mem_filter, Clears, FOp.clear.injEq, reduceCtorEq, or_false, false_and]
      constructor
      · rintro ⟨h1, h2⟩
        refine ⟨h1, fun h3 => ?_⟩
        subst h3; simp at h2
      · rintro ⟨h1, h2⟩
        refine ⟨h1, ?_⟩
        simp only [Bool.not_eq_true', beq_eq_false_iff_ne, ne_eq]
        exact fun h3 => h2 h3.symm

/-- the active errors are those of the history -/
theorem errors_active (s0 : Status) : ∀ (k : Nat) (ops : List FOp), ops.length = k →
    (∀ e, e ∈ (frun ⟨s0, []⟩ ops).errors ↔ Active ops e) ∧
    (∀ u, (∀ x ∈ (frun ⟨s0, []⟩ ops).errors, x.uuid ≠ u) ↔ Settled ops u) := by
  intro k
  induction k with
  | zero =>
    intro ops h
    have : ops = [] := List.length_eq_zero_iff.1 h
    subst this
    exact ⟨fun e => by simp [frun, active_nil], fun u => by simp [frun, settled_nil]⟩
  | succ k ih =>
    intro ops h
    rcases List.eq_nil_or_concat ops with h0 | ⟨l, o, h0⟩
    · subst h0; simp at h
    · subst h0
      have hl : l.length = k := by simp at h; omega
      obtain ⟨h1, h2⟩ := ih l hl
      rw [List.concat_eq_append]
      constructor
      · intro e
        rw [frun_snoc, fstep_errors, active_snoc, h1 e, h2 e.uuid]
      · intro u
        rw [frun_snoc, settled_snoc, ← h2 u]
        constructor
        · intro hx
          by_cases hc : Clears o u
          · exact Or.inl hc
          · right
            constructor
            · intro x hxm hu
              subst hu
              exact hx x ((fstep_errors _ o x).2 (Or.inl ⟨hxm, hc⟩)) rfl
            · rintro ⟨e, rfl, he⟩
              by_cases h3 : ∀ x ∈ (frun ⟨s0, []⟩ l).errors, x.uuid ≠ e.uuid
              · exact hx e ((fstep_errors _ _ e).2 (Or.inr ⟨rfl, h3⟩)) he
              · apply h3
                intro x hxm hu
                exact hx x ((fstep_errors _ _ x).2 (Or.inl ⟨hxm, by simp [Clears]⟩)) (hu.trans he)
        · rintro (hc | ⟨h3, h4⟩) x hxm hu
          · rcases (fstep_errors _ o x).1 hxm with ⟨_, h5⟩ | ⟨rfl, _⟩
            · exact h5 (hu ▸ hc)
            · rcases hc with h | h <;> simp at h
          · rcases (fstep_errors _ o x).1 hxm with ⟨h5, _⟩ | ⟨rfl, _⟩
            · exact h3 x h5 hu
            · exact h4 ⟨x, rfl, hu⟩

/-- the underlying state depends on the events only -/
theorem frun_state : ∀ (ops : List FOp) (m m' : Fsm), m.state = m'.state →
    (frun m ops).state = (frun m' (eventsOnly ops)).state := by
  intro ops
  induction ops with
  | nil => intro m m' h; exact h
  | cons o ops ih =>
    intro m m' h
    cases o with
    | event ev =>
      have : eventsOnly (.event ev :: ops) = .event ev :: eventsOnly ops := rfl
      rw [this]
      simp only [frun, List.foldl_cons]
      apply ih
      simp only [fstep, ← h]
      split <;> simp [h]
    | trigger => exact ih m m' h
    | clearAll => exact ih _ m' h
    | error e =>
      have : eventsOnly (.error e :: ops) = eventsOnly ops := rfl
      rw [this]
      simp only [frun, List.foldl_cons]
      apply ih
      rw [← h]; simp only [fstep]; split <;> rfl
    | clear u =>
      have : eventsOnly (.clear u :: ops) = eventsOnly ops := rfl
      rw [this]
      simp only [frun, List.foldl_cons]
      apply ih
      rw [← h]; simp only [fstep]; split <;> rfl

theorem active_error_mem {ops : List FOp} {e : Err} (h : Active ops e) : .error e ∈ ops := by
  obtain ⟨p, q, rfl, _⟩ := h; simp

theorem isFaulted_iff (m : Fsm) : isFaulted m = true ↔ ∃ e ∈ m.errors, e.fault = true := by
  simp [isFaulted]

/-- no transition leads back to its source -/
theorem next_ne {a b : Status} {e : Event} (h : next a e = some b) : b ≠ a := by
  rintro rfl
  cases b <;> cases e <;> simp [next] at h

theorem next_allowed {a b : Status} {e : Event} (h : next a e = some b) : Allowed a b := by
  cases a <;> cases e <;> simp [next] at h <;> subst h <;> simp [Allowed]

theorem next_not_faulted {a b : Status} {e : Event} (h : next a e = some b) : b ≠ .faulted := by
  rintro rfl
  cases a <;> cases e <;> simp [next] at h

/-- the status handed to the callback is the visible one -/
theorem note_visible (m : Fsm) (o : FOp) (n : Note) (h : (fstep m o).2 = some n) :
    n.status = visible (fstep m o).1 := by
  cases o with
  | event ev =>
    cases hn : next m.state ev with
    | none => simp [fstep, hn] at h
    | some st =>
      simp only [fstep, hn] at h ⊢
      split at h
      · simp at h
      · rename_i hf
        simp only [Option.some.injEq] at h; subst h
        simp [visible, hf]
  | error e =>
    simp only [fstep] at h ⊢
    split at h
    · simp at h
    · rename_i hu
      simp only [Option.some.injEq] at h; subst h
      rw [if_neg hu]; rfl
  | clear u =>
    simp only [fstep] at h ⊢
    split at h
    · simp at h
    · rename_i hu
      rw [if_neg hu]
      simp only at h
      split at h
      · simp at h
      · rename_i hf
        simp only [Option.some.injEq] at h; subst h
        simp [visible, hf]
  | clearAll =>
    simp only [fstep, Option.some.injEq] at h ⊢; subst h; simp [visible, isFaulted]
  | trigger =>
    simp only [fstep, Option.some.injEq] at h ⊢; subst h; rfl

/-- without a call of the callback the visible status stays -/
theorem silent_visible (m : Fsm) (o : FOp) (h : (fstep m o).2 = none) :
    visible (fstep m o).1 = visible m := by
  cases o with
  | event ev =>
    cases hn : next m.state ev with
    | none => simp [fstep, hn]
    | some st =>
      simp only [fstep, hn] at h ⊢
      have hf : isFaulted { m with state := st } = true := by
        split at h
        · assumption
        · simp at h
      have hf' : isFaulted m = true := hf
      simp [visible, hf, hf']
  | error e =>
    simp only [fstep] at h ⊢
    split at h
    · rename_i hu; rw [if_pos hu]
    · simp at h
  | clear u =>
    simp only [fstep] at h ⊢
    split at h
    · rename_i hu; rw [if_pos hu]
    · rename_i hu
      rw [if_neg hu]
      simp only at h ⊢
      have hf : isFaulted { m with errors := m.errors.filter (fun e => !(e.uuid == u)) } = true := by
        split at h
        · assumption
        · simp at h
      have hf' : isFaulted m = true := by
        rw [isFaulted_iff] at hf ⊢
        obtain ⟨e, he, h2⟩ := hf
        exact ⟨e, (List.mem_filter.1 he).1, h2⟩
      simp [visible, hf, hf']
  | clearAll => simp [fstep] at h
  | trigger => simp [fstep] at h

/-- one input changes the visible status at most as OCPP 1.6 allows -/
theorem fstep_allowed (m : Fsm) (o : FOp) :
    visible (fstep m o).1 = visible m ∨ Allowed (visible m) (visible (fstep m o).1) := by
  by_cases hv : visible m = .faulted
  · right; rw [hv]; exact Or.inr trivial
  by_cases hv' : visible (fstep m o).1 = .faulted
  · exact Or.inr (Or.inl hv')
  have hm : isFaulted m = false := by
    cases h : isFaulted m with
    | false => rfl
    | true => exact absurd (by simp [visible, h]) hv
  have hm' : isFaulted (fstep m o).1 = false := by
    cases h : isFaulted (fstep m o).1 with
    | false => rfl
    | true => exact absurd (by simp [visible, h]) hv'
  have e1 : visible m = m.state := by simp [visible, hm]
  have e2 : visible (fstep m o).1 = (fstep m o).1.state := by simp [visible, hm']
  rw [e1, e2]
  cases o with
  | event ev =>
    cases hn : next m.state ev with
    | none => left; simp [fstep, hn]
    | some st => right; simp only [fstep, hn]; exact next_allowed hn
  | error e => left; simp only [fstep]; split <;> rfl
  | clear u => left; simp only [fstep]; split <;> rfl
  | clearAll => exact Or.inl rfl
  | trigger => exact Or.inl rfl

/-- the latest error is an active one with the greatest time stamp -/
theorem latest_spec (m : Fsm) (e : Err) (h : latest m = some e) :
    e ∈ m.errors ∧ ∀ x ∈ m.errors, x.ts ≤ e.ts := by
  cases hm : m.errors with
  | nil => simp [latest, hm] at h
  | cons a as =>
    simp only [latest, hm, Option.some.injEq] at h
    suffices H : ∀ (as : List Err) (a : Err),
        let r := as.foldl (fun l x => if x.ts > l.ts then x else l) a
        (r = a ∨ r ∈ as) ∧ a.ts ≤ r.ts ∧ ∀ x ∈ as, x.ts ≤ r.ts by
      have := H as a
      simp only [h] at this
      obtain ⟨h1, h2, h3⟩ := this
      refine ⟨by rcases h1 with rfl | h1 <;> simp [*], ?_⟩
      intro x hx
      rcases List.mem_cons.1 hx with rfl | hx
      · exact h2
      · exact h3 x hx
    intro as
    induction as with
    | nil => intro a; simp
    | cons b bs ih =>
      intro a
      simp only [List.foldl_cons]
      by_cases hb : b.ts > a.ts
      · simp only [hb, if_true]
        obtain ⟨h1, h2, h3⟩ := ih b
        refine ⟨by rcases h1 with h1 | h1 <;> simp [h1], by omega, ?_⟩
        intro x hx
        rcases List.mem_cons.1 hx with rfl | hx
        · exact h2
        · exact h3 x hx
      · simp only [hb, if_false]
        obtain ⟨h1, h2, h3⟩ := ih a
        refine ⟨by rcases h1 with h1 | h1 <;> simp [h1], h2, ?_⟩
        intro x hx
        rcases List.mem_cons.1 hx with rfl | hx
        · omega
        · exact h3 x hx

theorem latest_none (m : Fsm) : latest m = none ↔ m.errors = [] := by
  cases h : m.errors <;> simp [latest, h]

end Verif.Conn16
