import Verif.UserPrice.Model

/-!
# Properties C209–C211: the user price during an authorization (OCPP 1.6)
-/

namespace Verif.UserPrice

/-- Event `x` happens, and event `y` later. -/
def Before (tr : List Ev) (x y : Ev) : Prop := ∃ a b c, tr = a ++ x :: b ++ y :: c

theorem Before.append {tr x y} (h : Before tr x y) (l : List Ev) : Before (tr ++ l) x y := by
  obtain ⟨a, b, c, rfl⟩ := h
  exact ⟨a, b, c ++ l, by simp⟩

theorem Before.of_mem {tr x y} (h : x ∈ tr) : Before (tr ++ [y]) x y := by
  obtain ⟨a, b, rfl⟩ := List.append_of_mem h
  exact ⟨a, b, [], by simp⟩

theorem upd_same [DecidableEq α] (f : α → β) (a : α) (b : β) : upd f a b a = b := by simp [upd]
theorem upd_other [DecidableEq α] {f : α → β} {a x : α} {b : β} (h : x ≠ a) : upd f a b x = f x := by simp [upd, h]

theorem upd_eq [DecidableEq α] {f : α → β} {a x : α} {b y : β} (h : upd f a b x = y) : (x = a ∧ b = y) ∨ (x ≠ a ∧ f x = y) := by
  by_cases e : x = a
  · subst e; rw [upd_same] at h; exact Or.inl ⟨rfl, h⟩
  · rw [upd_other e] at h; exact Or.inr ⟨e, h⟩

/-! ## Invariant of all schedules -/

structure Inv (s : St) : Prop where
  own1 : ∀ j, s.owner = some j → ∃ t f, s.th j = .asked t f
  own2 : ∀ j t f, s.th j = .asked t f → s.owner = some j
  clean : ∀ j t f, s.th j = .asked t f → s.tariffs t = none
  mem : ∀ j t, ((∃ f, s.th j = .asked t f) ∨ s.th j = .waiting t) → .asked j t ∈ s.tr
  recent : ∀ j t m, s.th j = .waiting t → s.tariffs t = some m → Before s.tr (.asked j t) (.handled t m)
  ended : ∀ a b j t m, s.tr = a ++ .ended j t (.tariff m) :: b → Before a (.asked j t) (.handled t m)

/-- Splitting a trace that has grown by one event. -/
theorem split_snoc {tr a b : List Ev} {e x : Ev} (h : tr ++ [e] = a ++ x :: b) :
    (∃ b', tr = a ++ x :: b') ∨ (x = e ∧ a = tr) := by
  rcases List.eq_nil_or_concat b with rfl | ⟨b', y, rfl⟩
  · have := List.append_inj' h rfl
    simp only [List.cons.injEq, and_true] at this
    exact Or.inr ⟨this.2.symm, this.1.symm⟩
  · have h : tr ++ [e] = (a ++ x :: b') ++ [y] := by simpa using h
    have := List.append_inj' h rfl
    exact Or.inl ⟨b', this.1⟩

theorem ended_snoc {tr : List Ev} {e : Ev} (h : ∀ a b j t m, tr = a ++ .ended j t (.tariff m) :: b → Before a (.asked j t) (.handled t m))
    (he : ∀ j t m, e = .ended j t (.tariff m) → Before tr (.asked j t) (.handled t m)) :
    ∀ a b j t m, tr ++ [e] = a ++ .ended j t (.tariff m) :: b → Before a (.asked j t) (.handled t m) := by
  intro a b j t m hs
  rcases split_snoc hs with ⟨b', h1⟩ | ⟨h1, h2⟩
  · exact h a b' j t m h1
  · rw [h2]; exact he j t m h1.symm

theorem Inv.finish {s : St} (h : Inv s) {j : Nat} {t : Tok} (hj : ∀ i t f, s.th i = .asked t f → i ≠ j) (r : Res)
    (ho : s.owner ≠ some j) (hr : ∀ m, r = .tariff m → Before s.tr (.asked j t) (.handled t m)) : Inv (s.finish j t r) := by
  constructor
  · intro i hi
    obtain ⟨t', f, h1⟩ := h.own1 i hi
    refine ⟨t', f, ?_⟩
    show upd s.th j _ i = _
    rw [upd_other (hj i t' f h1)]; exact h1
  · intro i t' f hi
    rcases upd_eq hi with ⟨_, h1⟩ | ⟨_, h1⟩
    · cases h1
    · exact h.own2 i t' f h1
  · intro i t' f hi
    rcases upd_eq hi with ⟨_, h1⟩ | ⟨_, h1⟩
    · cases h1
    · exact h.clean i t' f h1
  · intro i t' hi
    refine List.mem_append_left _ (h.mem i t' ?_)
    rcases hi with ⟨f, hi⟩ | hi
    · rcases upd_eq hi with ⟨_, h1⟩ | ⟨_, h1⟩
      · cases h1
      · exact Or.inl ⟨f, h1⟩
    · rcases upd_eq hi with ⟨_, h1⟩ | ⟨_, h1⟩
      · cases h1
      · exact Or.inr h1
  · intro i t' m hi ht
    rcases upd_eq hi with ⟨_, h1⟩ | ⟨_, h1⟩
    · cases h1
    · exact (h.recent i t' m h1 ht).append _
  · refine ended_snoc h.ended ?_
    intro i t' m he
    simp only [Ev.ended.injEq] at he
    obtain ⟨rfl, rfl, e⟩ := he
    exact hr m e

/-- The parts of the state the invariant does not look at. -/
theorem Inv.frame {s s' : St} (h : Inv s) (h1 : s'.owner = s.owner) (h2 : s'.tariffs = s.tariffs) (h3 : s'.th = s.th)
    (h4 : s'.tr = s.tr) : Inv s' := by
  constructor
  · rw [h1, h3]; exact h.own1
  · rw [h1, h3]; exact h.own2
  · rw [h2, h3]; exact h.clean
  · rw [h3, h4]; exact h.mem
  · rw [h2, h3, h4]; exact h.recent
  · rw [h4]; exact h.ended

theorem Inv.erase {s s' : St} (h : Inv s) (t : Tok) (h1 : s'.owner = s.owner) (h2 : s'.tariffs = upd s.tariffs t none)
    (h3 : s'.th = s.th) (h4 : s'.tr = s.tr) : Inv s' := by
  constructor
  · rw [h1, h3]; exact h.own1
  · rw [h1, h3]; exact h.own2
  · rw [h2, h3]
    intro j t' f hj
    by_cases e : t' = t
    · rw [e, upd_same]
    · rw [upd_other e]; exact h.clean j t' f hj
  · rw [h3, h4]; exact h.mem
  · rw [h2, h3, h4]
    intro j t' m hj ht
    rcases upd_eq ht with ⟨_, h5⟩ | ⟨_, h5⟩
    · cases h5
    · exact h.recent j t' m hj h5
  · rw [h4]; exact h.ended

theorem Inv.take {s : St} (h : Inv s) {j : Nat} {t : Tok} (hj : s.th j = .waiting t) : Inv (s.take j t) := by
  have hn : ∀ i t' f, s.th i = .asked t' f → i ≠ j := by
    rintro i t' f hi rfl; rw [hj] at hi; cases hi
  have ho : s.owner ≠ some j := by
    intro hc; obtain ⟨t', f, h1⟩ := h.own1 j hc; rw [hj] at h1; cases h1
  unfold St.take
  dsimp only
  split
  · rename_i m hm
    have h1 : Inv { s with cvs := upd s.cvs t false, tariffs := upd s.tariffs t none } := h.erase t rfl rfl rfl rfl
    refine h1.finish hn _ ho ?_
    intro m' hm'
    cases hm'
    exact h.recent j t m hj hm
  · have h1 : Inv { s with cvs := upd s.cvs t false } := h.frame rfl rfl rfl rfl
    refine h1.finish hn _ ho ?_
    intro m' hm'; cases hm'

theorem Inv.setFut {s s' : St} (h : Inv s) {j : Nat} {t : Tok} {a : Option Ans} (hj : s.th j = .asked t none)
    (h1 : s'.owner = s.owner) (h2 : s'.tariffs = s.tariffs) (h3 : s'.th = upd s.th j (.asked t a))
    (h4 : s'.tr = s.tr ∨ ∃ acc, s'.tr = s.tr ++ [.answered j acc]) : Inv s' := by
  have hm : ∀ e, e ∈ s.tr → e ∈ s'.tr := by
    intro e he; rcases h4 with h4 | ⟨acc, h4⟩ <;> rw [h4]
    · exact he
    · exact List.mem_append_left _ he
  constructor
  · rw [h1, h3]; intro i hi
    obtain ⟨t', f, h5⟩ := h.own1 i hi
    by_cases e : i = j
    · subst e; exact ⟨t, a, upd_same _ _ _⟩
    · exact ⟨t', f, by rw [upd_other e]; exact h5⟩
  · rw [h1, h3]; intro i t' f hi
    rcases upd_eq hi with ⟨e, h5⟩ | ⟨_, h5⟩
    · rw [e]; exact h.own2 j t none hj
    · exact h.own2 i t' f h5
  · rw [h2, h3]; intro i t' f hi
    rcases upd_eq hi with ⟨_, h5⟩ | ⟨_, h5⟩
    · cases h5; exact h.clean j t none hj
    · exact h.clean i t' f h5
  · rw [h3]; intro i t' hi
    refine hm _ ?_
    rcases hi with ⟨f, hi⟩ | hi
    · rcases upd_eq hi with ⟨e, h5⟩ | ⟨_, h5⟩
      · cases h5; rw [e]; exact h.mem j t (Or.inl ⟨_, hj⟩)
      · exact h.mem i t' (Or.inl ⟨_, h5⟩)
    · rcases upd_eq hi with ⟨_, h5⟩ | ⟨_, h5⟩
      · cases h5
      · exact h.mem i t' (Or.inr h5)
  · rw [h2, h3]; intro i t' m hi ht
    rcases upd_eq hi with ⟨_, h5⟩ | ⟨_, h5⟩
    · cases h5
    · have := h.recent i t' m h5 ht
      rcases h4 with h4 | ⟨acc, h4⟩ <;> rw [h4]
      · exact this
      · exact this.append _
  · rcases h4 with h4 | ⟨acc, h4⟩ <;> rw [h4]
    · exact h.ended
    · exact ended_snoc h.ended (by intro _ _ _ he; cases he)

/-- Giving back the mutex and ending without tariff message. -/
theorem Inv.release {s : St} (h : Inv s) {j : Nat} {t : Tok} {f : Option Ans} (hj : s.th j = .asked t f) (r : Res)
    (hr : ∀ m, r ≠ .tariff m) : Inv ({ s with owner := none }.finish j t r) := by
  have hone : ∀ i t' f', s.th i = .asked t' f' → i = j := by
    intro i t' f' hi
    have h1 := h.own2 i t' f' hi
    rw [h.own2 j t f hj] at h1
    cases h1; rfl
  constructor
  · intro i hi; cases hi
  · intro i t' f' hi
    rcases upd_eq hi with ⟨_, h1⟩ | ⟨hne, h1⟩
    · cases h1
    · exact absurd (hone i t' f' h1) hne
  · intro i t' f' hi
    rcases upd_eq hi with ⟨_, h1⟩ | ⟨_, h1⟩
    · cases h1
    · exact h.clean i t' f' h1
  · intro i t' hi
    refine List.mem_append_left _ (h.mem i t' ?_)
    rcases hi with ⟨f', hi⟩ | hi
    · rcases upd_eq hi with ⟨_, h1⟩ | ⟨_, h1⟩
      · cases h1
      · exact Or.inl ⟨f', h1⟩
    · rcases upd_eq hi with ⟨_, h1⟩ | ⟨_, h1⟩
      · cases h1
      · exact Or.inr h1
  · intro i t' m hi ht
    rcases upd_eq hi with ⟨_, h1⟩ | ⟨_, h1⟩
    · cases h1
    · exact (h.recent i t' m h1 ht).append _
  · refine ended_snoc h.ended ?_
    intro i t' m he
    simp only [Ev.ended.injEq] at he
    exact absurd he.2.2 (hr m)

theorem Inv.proceed {s : St} (h : Inv s) {j : Nat} {t : Tok} {a : Ans} (hj : s.th j = .asked t (some a)) :
    Inv (s.proceed j t a) := by
  cases a with
  | refused => exact h.release hj _ (by intro m hc; cases hc)
  | none => exact h.release hj _ (by intro m hc; cases hc)
  | accepted =>
    simp only [St.proceed]
    have hc := h.clean j t _ hj
    rw [if_neg (by simp [hc])]
    have hone : ∀ i t' f', s.th i = .asked t' f' → i = j := by
      intro i t' f' hi
      have h1 := h.own2 i t' f' hi
      rw [h.own2 j t _ hj] at h1
      cases h1; rfl
    constructor
    · intro i hi; cases hi
    · intro i t' f' hi
      rcases upd_eq hi with ⟨_, h1⟩ | ⟨hne, h1⟩
      · cases h1
      · exact absurd (hone i t' f' h1) hne
    · intro i t' f' hi
      rcases upd_eq hi with ⟨_, h1⟩ | ⟨_, h1⟩
      · cases h1
      · exact h.clean i t' f' h1
    · intro i t' hi
      rcases hi with ⟨f', hi⟩ | hi
      · rcases upd_eq hi with ⟨_, h1⟩ | ⟨_, h1⟩
        · cases h1
        · exact h.mem i t' (Or.inl ⟨f', h1⟩)
      · rcases upd_eq hi with ⟨e, h1⟩ | ⟨_, h1⟩
        · cases h1; rw [e]; exact h.mem j t (Or.inl ⟨_, hj⟩)
        · exact h.mem i t' (Or.inr h1)
    · intro i t' m hi ht
      rcases upd_eq hi with ⟨_, h1⟩ | ⟨_, h1⟩
      · cases h1
        have ht : s.tariffs t = some m := ht
        rw [hc] at ht; cases ht
      · exact h.recent i t' m h1 ht
    · exact h.ended

theorem Inv.lock {s : St} (h : Inv s) {j : Nat} {t : Tok} (hj : s.th j = .want t) (ho : s.owner = none) : Inv (s.lock j t) := by
  have hno : ∀ i t' f', s.th i ≠ .asked t' f' := by
    intro i t' f' hi; have := h.own2 i t' f' hi; rw [ho] at this; cases this
  constructor
  · intro i hi
    cases hi
    exact ⟨t, none, upd_same _ _ _⟩
  · intro i t' f' hi
    rcases upd_eq hi with ⟨e, _⟩ | ⟨_, h1⟩
    · rw [e]; rfl
    · exact absurd h1 (hno i t' f')
  · intro i t' f' hi
    rcases upd_eq hi with ⟨_, h1⟩ | ⟨_, h1⟩
    · cases h1; exact upd_same _ _ _
    · exact absurd h1 (hno i t' f')
  · intro i t' hi
    rcases hi with ⟨f', hi⟩ | hi
    · rcases upd_eq hi with ⟨e, h1⟩ | ⟨_, h1⟩
      · cases h1; rw [e]; exact List.mem_append_right _ (by simp)
      · exact absurd h1 (hno i t' f')
    · rcases upd_eq hi with ⟨_, h1⟩ | ⟨_, h1⟩
      · cases h1
      · exact List.mem_append_left _ (h.mem i t' (Or.inr h1))
  · intro i t' m hi ht
    rcases upd_eq hi with ⟨_, h1⟩ | ⟨_, h1⟩
    · cases h1
    · rcases upd_eq ht with ⟨_, h2⟩ | ⟨_, h2⟩
      · cases h2
      · exact (h.recent i t' m h1 h2).append _
  · exact ended_snoc h.ended (by intro _ _ _ he; cases he)

theorem Inv.store {s : St} (h : Inv s) (ho : s.owner = none) (t : Tok) (m : Nat) : Inv (s.store t m) := by
  have hno : ∀ i t' f', s.th i ≠ .asked t' f' := by
    intro i t' f' hi; have := h.own2 i t' f' hi; rw [ho] at this; cases this
  have hmem : ∀ i t', ((∃ f, s.th i = .asked t' f) ∨ s.th i = .waiting t') → .asked i t' ∈ s.tr ++ [.handled t m] :=
    fun i t' hi => List.mem_append_left _ (h.mem i t' hi)
  have hend := ended_snoc (e := .handled t m) h.ended (by intro _ _ _ he; cases he)
  unfold St.store
  dsimp only
  split
  · refine ⟨h.own1, h.own2, fun i t' f' hi => absurd hi (hno i t' f'), hmem, ?_, hend⟩
    intro i t' m' hi ht
    rcases upd_eq ht with ⟨e, h2⟩ | ⟨_, h2⟩
    · cases h2; rw [e] at hi ⊢
      exact Before.of_mem (h.mem i t (Or.inr hi))
    · exact (h.recent i t' m' hi h2).append _
  · exact ⟨h.own1, h.own2, h.clean, hmem, fun i t' m' hi ht => (h.recent i t' m' hi ht).append _, hend⟩

theorem Inv.recv {s : St} (h : Inv s) : Inv s.recv := by
  unfold St.recv
  split
  · exact h
  · rename_i j acc rest _
    dsimp only
    split
    · rename_i t heq
      exact Inv.setFut (s := s) h heq rfl rfl rfl (Or.inr ⟨acc, rfl⟩)
    · exact h.frame rfl rfl rfl rfl
  · exact h.frame rfl rfl rfl rfl

theorem Inv.step {s : St} (h : Inv s) (op : Op) : Inv (step s op) := by
  unfold Verif.UserPrice.step
  split
  · exact h
  · cases op with
    | begin j t =>
      dsimp only
      split
      · rename_i hf
        have key : ∀ {i x}, upd s.th j (.want t) i = x → (∀ t, x ≠ .want t) → s.th i = x := by
          intro i x hi hx
          rcases upd_eq hi with ⟨_, h1⟩ | ⟨_, h1⟩
          · exact absurd h1.symm (hx t)
          · exact h1
        constructor
        · intro i hi
          obtain ⟨t', f, h1⟩ := h.own1 i hi
          refine ⟨t', f, ?_⟩
          have hne : i ≠ j := by rintro rfl; rw [hf] at h1; cases h1
          show upd s.th j _ i = _
          rw [upd_other hne]; exact h1
        · intro i t' f hi; exact h.own2 i t' f (key hi (by intro _ hc; cases hc))
        · intro i t' f hi; exact h.clean i t' f (key hi (by intro _ hc; cases hc))
        · intro i t' hi
          refine h.mem i t' ?_
          rcases hi with ⟨f, hi⟩ | hi
          · exact Or.inl ⟨f, key hi (by intro _ hc; cases hc)⟩
          · exact Or.inr (key hi (by intro _ hc; cases hc))
        · intro i t' m hi ht; exact h.recent i t' m (key hi (by intro _ hc; cases hc)) ht
        · exact h.ended
      · exact h
    | lock j =>
      dsimp only
      split
      · rename_i t h1 h2; exact h.lock h1 h2
      · exact h
    | giveUp j =>
      dsimp only
      split
      · rename_i t h1; exact Inv.setFut (s := s) h h1 rfl rfl rfl (Or.inl rfl)
      · exact h
    | futTimeout j =>
      dsimp only
      split
      · rename_i t h1; exact h.release h1 _ (by intro m hc; cases hc)
      · exact h
    | proceed j =>
      dsimp only
      split
      · rename_i t a h1; exact h.proceed h1
      · exact h
    | wake j timeUp =>
      dsimp only
      split
      · rename_i t h1 h2
        unfold St.wake
        split
        · exact (h.take h1).frame rfl rfl rfl rfl
        · exact h
      · exact h
    | arrive m => exact h.frame rfl rfl rfl rfl
    | recv =>
      dsimp only
      split
      · exact h.recv
      · exact h
    | store =>
      dsimp only
      split
      · rename_i t m h1 h2; exact h.store h2 t m
      · exact h

theorem Inv.run {s : St} (h : Inv s) (ops : List Op) : Inv (run s ops) := by
  induction ops generalizing s with
  | nil => exact h
  | cons op ops ih => exact ih (h.step op)

theorem init_inv : Inv init := by
  constructor <;> simp [init]

/-! ## C209 -/

/-- **C209.** With any number of concurrent authorizations and any schedule: a tariff message that is returned with an
authorization of token `t` was sent by the CSMS in a SetUserPrice for exactly this token, and processed after the
Authorize.req of this authorization had been handed over. -/
theorem C209_right_price (ops : List Op) (a b : List Ev) (j : Nat) (t : Tok) (m : Nat)
    (h : (run init ops).tr = a ++ .ended j t (.tariff m) :: b) :
    ∃ p q r, a = p ++ .asked j t :: q ++ .handled t m :: r :=
  (init_inv.run ops).ended a b j t m h

/-- Two authorizations with different tokens, each with a price. -/
def twoTokens : List Op :=
  [.begin 0 "A", .begin 1 "B", .lock 0, .arrive (.conf 0 true), .recv, .proceed 0, .lock 1, .arrive (.conf 1 true),
   .recv, .arrive (.price "A" 7), .recv, .proceed 1, .store, .arrive (.price "B" 8), .recv, .store, .wake 1 false, .wake 0 false]

example : (run init twoTokens).tr =
    [.asked 0 "A", .answered 0 true, .asked 1 "B", .answered 1 true, .handled "A" 7, .handled "B" 8,
     .ended 1 "B" (.tariff 8), .ended 0 "A" (.tariff 7)] := by decide +kernel

end Verif.UserPrice
