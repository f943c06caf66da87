import Verif.UserPrice.Theorems

/-!
# C210, C211: no price is lost; the thread that processes messages
-/

namespace Verif.UserPrice

/-- The token of an authorization that has begun and not ended. -/
def Th.tok : Th → Option Tok
  | .want t | .asked t _ | .waiting t => some t
  | _ => none

/-- A new authorization begins only while no other one of the same token is in progress. -/
def Single (s : St) : Op → Prop
  | .begin _ t => ∀ i, (s.th i).tok ≠ some t
  | _ => True

/-- The condition holds at every step of a history. -/
def Along (ok : St → Op → Prop) : St → List Op → Prop
  | _, [] => True
  | s, op :: ops => ok s op ∧ Along ok (step s op) ops

theorem Before.snoc {tr : List Ev} {e x y : Ev} (h : Before (tr ++ [e]) x y) : Before tr x y ∨ (y = e ∧ x ∈ tr) := by
  obtain ⟨a, b, c, h⟩ := h
  rcases split_snoc h with ⟨c', h1⟩ | ⟨h1, h2⟩
  · exact Or.inl ⟨a, b, c', h1⟩
  · exact Or.inr ⟨h1, by rw [← h2]; simp⟩

theorem Before.mem_left {tr x y} (h : Before tr x y) : x ∈ tr := by
  obtain ⟨a, b, c, rfl⟩ := h; simp

/-- The answered event cannot be after a non-handled event. -/
theorem Before.snoc_other {tr : List Ev} {e x : Ev} {t m} (h : Before (tr ++ [e]) x (.handled t m))
    (he : ∀ t m, e ≠ .handled t m) : Before tr x (.handled t m) := by
  rcases h.snoc with h | ⟨h, _⟩
  · exact h
  · exact absurd h.symm (he t m)

structure Uni (s : St) : Prop where
  inv : Inv s
  uniq : ∀ i j t, (s.th i).tok = some t → (s.th j).tok = some t → i = j
  cv : ∀ j t, s.th j = .waiting t → s.cvs t = true
  noub : s.ub = false
  early : ∀ j acc, (s.th j = .fresh ∨ (∃ t, s.th j = .want t) ∨ ∃ t, s.th j = .asked t none) → .answered j acc ∉ s.tr
  k1 : ∀ j t f m, s.th j = .asked t f → ¬ Before s.tr (.answered j true) (.handled t m)
  k2 : ∀ j t m, s.th j = .waiting t → Before s.tr (.answered j true) (.handled t m) → s.tariffs t ≠ none
  fin : ∀ a b j t r m, s.tr = a ++ .ended j t r :: b → Before a (.answered j true) (.handled t m) → ∃ m', r = .tariff m'

theorem fin_snoc {tr : List Ev} {e : Ev}
    (h : ∀ a b j t r m, tr = a ++ .ended j t r :: b → Before a (.answered j true) (.handled t m) → ∃ m', r = .tariff m')
    (he : ∀ j t r m, e = .ended j t r → Before tr (.answered j true) (.handled t m) → ∃ m', r = .tariff m') :
    ∀ a b j t r m, tr ++ [e] = a ++ .ended j t r :: b → Before a (.answered j true) (.handled t m) → ∃ m', r = .tariff m' := by
  intro a b j t r m hs hb
  rcases split_snoc hs with ⟨b', h1⟩ | ⟨h1, h2⟩
  · exact h a b' j t r m h1 hb
  · rw [h2] at hb; exact he j t r m h1.symm hb

/-- One authorization goes to a state with the same token or without one. -/
theorem uniq_upd {th : Nat → Th} (h : ∀ i j t, (th i).tok = some t → (th j).tok = some t → i = j) (k : Nat) (x : Th)
    (hx : ∀ t, x.tok = some t → (th k).tok = some t) :
    ∀ i j t, (upd th k x i).tok = some t → (upd th k x j).tok = some t → i = j := by
  have key : ∀ i t, (upd th k x i).tok = some t → (th i).tok = some t := by
    intro i t hi
    by_cases e : i = k
    · subst e; rw [upd_same] at hi; exact hx t hi
    · rw [upd_other e] at hi; exact hi
  intro i j t hi hj
  exact h i j t (key i t hi) (key j t hj)

theorem otherWaits_false {s : St} (h : ∀ i j t, (s.th i).tok = some t → (s.th j).tok = some t → i = j) {j : Nat} {t : Tok}
    (hj : (s.th j).tok = some t) (n : Nat) : s.otherWaits j t n = false := by
  unfold St.otherWaits
  rw [List.any_eq_false]
  intro i _ hc
  simp only [Bool.and_eq_true, bne_iff_ne, decide_eq_true_eq] at hc
  exact hc.1 (h i j t (by rw [hc.2]; rfl) hj)

theorem Uni.wake {s : St} (h : Uni s) {j : Nat} {t : Tok} (hj : s.th j = .waiting t) (ho : s.owner = none) (timeUp : Bool)
    (hi : Inv (s.wake j t timeUp)) : Uni (s.wake j t timeUp) := by
  unfold St.wake at hi ⊢
  split
  · rename_i hc
    rw [if_pos hc] at hi
    have htok : (s.th j).tok = some t := by rw [hj]; rfl
    have hub := otherWaits_false h.uniq htok (bound s.tr)
    have hno : ∀ i t' f', s.th i ≠ .asked t' f' := by
      intro i t' f' hi; have := h.inv.own2 i t' f' hi; rw [ho] at this; cases this
    have gen : ∀ (s' : St) (r : Res), Inv s' → s'.th = upd s.th j (.ended t r) → s'.cvs = upd s.cvs t false → s'.ub = false →
        s'.tr = s.tr ++ [.ended j t r] → (∀ t', t' ≠ t → s'.tariffs t' = s.tariffs t') →
        ((∃ m, Before s.tr (.answered j true) (.handled t m)) → ∃ m', r = .tariff m') → Uni s' := by
      intro s' r hI h1 h2 h3 h4 h5 h6
      have keyw : ∀ i t', s'.th i = .waiting t' → s.th i = .waiting t' ∧ i ≠ j := by
        intro i t' hw
        rw [h1] at hw
        rcases upd_eq hw with ⟨_, hx⟩ | ⟨hne, hx⟩
        · cases hx
        · exact ⟨hx, hne⟩
      have hne : ∀ i t', s.th i = .waiting t' → i ≠ j → t' ≠ t := by
        rintro i t' hw hij rfl
        exact hij (h.uniq i j t' (by rw [hw]; rfl) htok)
      refine ⟨hI, ?_, ?_, h3, ?_, ?_, ?_, ?_⟩
      · rw [h1]; exact uniq_upd h.uniq j _ (by intro t hc; cases hc)
      · intro i t' hw
        obtain ⟨hw, hij⟩ := keyw i t' hw
        rw [h2, upd_other (hne i t' hw hij)]; exact h.cv i t' hw
      · intro i acc hcase hm
        rw [h4] at hm
        simp only [List.mem_append, List.mem_singleton, reduceCtorEq, or_false] at hm
        refine h.early i acc ?_ hm
        rw [h1] at hcase
        rcases hcase with hx | ⟨t', hx⟩ | ⟨t', hx⟩ <;> rcases upd_eq hx with ⟨_, hx⟩ | ⟨_, hx⟩
        · cases hx
        · exact Or.inl hx
        · cases hx
        · exact Or.inr (Or.inl ⟨t', hx⟩)
        · cases hx
        · exact Or.inr (Or.inr ⟨t', hx⟩)
      · intro i t' f m hx
        rw [h1] at hx
        rcases upd_eq hx with ⟨_, hx⟩ | ⟨_, hx⟩
        · cases hx
        · exact absurd hx (hno i t' f)
      · intro i t' m hw hb
        obtain ⟨hw, hij⟩ := keyw i t' hw
        rw [h5 t' (hne i t' hw hij)]
        rw [h4] at hb
        exact h.k2 i t' m hw (hb.snoc_other (by intro _ _ hc; cases hc))
      · rw [h4]
        refine fin_snoc h.fin ?_
        intro i t' r' m he hb
        simp only [Ev.ended.injEq] at he
        obtain ⟨rfl, rfl, rfl⟩ := he
        exact h6 ⟨m, hb⟩
    cases htar : s.tariffs t with
    | none =>
      refine gen _ .default hi ?_ ?_ hub ?_ ?_ ?_
      · simp [St.take, htar, St.finish]
      · simp [St.take, htar, St.finish]
      · simp [St.take, htar, St.finish]
      · intro t' _; simp [St.take, htar, St.finish]
      · rintro ⟨m, hb⟩; exact absurd htar (h.k2 j t m hj hb)
    | some m =>
      refine gen _ (.tariff m) hi ?_ ?_ hub ?_ ?_ ?_
      · simp [St.take, htar, St.finish]
      · simp [St.take, htar, St.finish]
      · simp [St.take, htar, St.finish]
      · intro t' hne; simp [St.take, htar, St.finish, upd_other hne]
      · intro _; exact ⟨m, rfl⟩
  · exact h

/-- Ending from `asked`. -/
theorem Uni.release {s : St} (h : Uni s) {j : Nat} {t : Tok} {f : Option Ans} (hj : s.th j = .asked t f) (r : Res)
    (hi : Inv ({ s with owner := none }.finish j t r)) : Uni ({ s with owner := none }.finish j t r) := by
  refine ⟨hi, uniq_upd h.uniq j _ (by intro t hc; cases hc), ?_, h.noub, ?_, ?_, ?_, ?_⟩
  · intro i t' hw
    rcases upd_eq hw with ⟨_, hx⟩ | ⟨_, hx⟩
    · cases hx
    · exact h.cv i t' hx
  · intro i acc hcase hm
    have hm : Ev.answered i acc ∈ s.tr ++ [.ended j t r] := hm
    simp only [List.mem_append, List.mem_singleton, reduceCtorEq, or_false] at hm
    refine h.early i acc ?_ hm
    rcases hcase with hx | ⟨t', hx⟩ | ⟨t', hx⟩ <;> rcases upd_eq hx with ⟨_, hx⟩ | ⟨_, hx⟩
    · cases hx
    · exact Or.inl hx
    · cases hx
    · exact Or.inr (Or.inl ⟨t', hx⟩)
    · cases hx
    · exact Or.inr (Or.inr ⟨t', hx⟩)
  · intro i t' f' m hx hb
    rcases upd_eq hx with ⟨_, hx⟩ | ⟨_, hx⟩
    · cases hx
    · exact h.k1 i t' f' m hx (Before.snoc_other hb (by intro _ _ hc; cases hc))
  · intro i t' m hw hb
    rcases upd_eq hw with ⟨_, hx⟩ | ⟨_, hx⟩
    · cases hx
    · exact h.k2 i t' m hx (Before.snoc_other hb (by intro _ _ hc; cases hc))
  · refine fin_snoc h.fin ?_
    intro i t' r' m he hb
    simp only [Ev.ended.injEq] at he
    obtain ⟨rfl, rfl, rfl⟩ := he
    exact absurd hb (h.k1 j t f m hj)

theorem Uni.proceed {s : St} (h : Uni s) {j : Nat} {t : Tok} {a : Ans} (hj : s.th j = .asked t (some a))
    (hi : Inv (s.proceed j t a)) : Uni (s.proceed j t a) := by
  cases a with
  | refused => exact h.release hj _ hi
  | none => exact h.release hj _ hi
  | accepted =>
    have hc := h.inv.clean j t _ hj
    have e : s.proceed j t .accepted =
        { s with owner := none, cvs := upd s.cvs t true, th := upd s.th j (.waiting t) } := by
      simp [St.proceed, hc]
    rw [e] at hi ⊢
    refine ⟨hi, uniq_upd h.uniq j _ ?_, ?_, h.noub, ?_, ?_, ?_, h.fin⟩
    · intro t' ht'; rw [hj]; exact ht'
    · intro i t' hw
      by_cases e : t' = t
      · rw [e]; exact upd_same _ _ _
      · show upd s.cvs t true t' = true
        rw [upd_other e]
        rcases upd_eq hw with ⟨_, hx⟩ | ⟨_, hx⟩
        · cases hx; exact absurd rfl e
        · exact h.cv i t' hx
    · intro i acc hcase
      refine h.early i acc ?_
      rcases hcase with hx | ⟨t', hx⟩ | ⟨t', hx⟩ <;> rcases upd_eq hx with ⟨_, hx⟩ | ⟨_, hx⟩
      · cases hx
      · exact Or.inl hx
      · cases hx
      · exact Or.inr (Or.inl ⟨t', hx⟩)
      · cases hx
      · exact Or.inr (Or.inr ⟨t', hx⟩)
    · intro i t' f' m hx
      rcases upd_eq hx with ⟨_, hx⟩ | ⟨_, hx⟩
      · cases hx
      · exact h.k1 i t' f' m hx
    · intro i t' m hw hb
      rcases upd_eq hw with ⟨e, hx⟩ | ⟨_, hx⟩
      · cases hx
        rw [e] at hb
        exact absurd hb (h.k1 j t _ m hj)
      · exact h.k2 i t' m hx hb

theorem Uni.lock {s : St} (h : Uni s) {j : Nat} {t : Tok} (hj : s.th j = .want t) (hi : Inv (s.lock j t)) : Uni (s.lock j t) := by
  refine ⟨hi, uniq_upd h.uniq j _ (by intro t' ht'; rw [hj]; exact ht'), ?_, h.noub, ?_, ?_, ?_, ?_⟩
  · intro i t' hw
    rcases upd_eq hw with ⟨_, hx⟩ | ⟨_, hx⟩
    · cases hx
    · exact h.cv i t' hx
  · intro i acc hcase hm
    have hm : Ev.answered i acc ∈ s.tr ++ [.asked j t] := hm
    simp only [List.mem_append, List.mem_singleton, reduceCtorEq, or_false] at hm
    refine h.early i acc ?_ hm
    rcases hcase with hx | ⟨t', hx⟩ | ⟨t', hx⟩ <;> rcases upd_eq hx with ⟨e, hx⟩ | ⟨_, hx⟩
    · cases hx
    · exact Or.inl hx
    · cases hx
    · exact Or.inr (Or.inl ⟨t', hx⟩)
    · rw [e]; exact Or.inr (Or.inl ⟨t, hj⟩)
    · exact Or.inr (Or.inr ⟨t', hx⟩)
  · intro i t' f' m hx hb
    have hb := Before.snoc_other hb (by intro _ _ hc; cases hc)
    rcases upd_eq hx with ⟨e, hx⟩ | ⟨_, hx⟩
    · rw [e] at hb
      exact h.early j true (Or.inr (Or.inl ⟨t, hj⟩)) hb.mem_left
    · exact h.k1 i t' f' m hx hb
  · intro i t' m hw hb
    have hb := Before.snoc_other hb (by intro _ _ hc; cases hc)
    rcases upd_eq hw with ⟨_, hx⟩ | ⟨hne, hx⟩
    · cases hx
    · have : t' ≠ t := by
        rintro rfl
        exact hne (h.uniq i j t' (by rw [hx]; rfl) (by rw [hj]; rfl))
      show upd s.tariffs t none t' ≠ none
      rw [upd_other this]
      exact h.k2 i t' m hx hb
  · exact fin_snoc h.fin (by intro _ _ _ _ he; cases he)

theorem Uni.setFut {s s' : St} (h : Uni s) {j : Nat} {t : Tok} {a : Ans} (hj : s.th j = .asked t none) (hi : Inv s')
    (h2 : s'.tariffs = s.tariffs) (h3 : s'.th = upd s.th j (.asked t (some a))) (h5 : s'.cvs = s.cvs) (h6 : s'.ub = s.ub)
    (h4 : s'.tr = s.tr ∨ ∃ acc, s'.tr = s.tr ++ [.answered j acc]) : Uni s' := by
  have hbef : ∀ i t' m, Before s'.tr (.answered i true) (.handled t' m) → Before s.tr (.answered i true) (.handled t' m) := by
    intro i t' m hb
    rcases h4 with h4 | ⟨acc, h4⟩ <;> rw [h4] at hb
    · exact hb
    · exact hb.snoc_other (by intro _ _ hc; cases hc)
  refine ⟨hi, ?_, ?_, by rw [h6]; exact h.noub, ?_, ?_, ?_, ?_⟩
  · rw [h3]; exact uniq_upd h.uniq j _ (by intro t' ht'; rw [hj]; exact ht')
  · rw [h3, h5]; intro i t' hw
    rcases upd_eq hw with ⟨_, hx⟩ | ⟨_, hx⟩
    · cases hx
    · exact h.cv i t' hx
  · rw [h3]; intro i acc hcase hm
    have hcase' : i ≠ j ∧ (s.th i = .fresh ∨ (∃ t, s.th i = .want t) ∨ ∃ t, s.th i = .asked t none) := by
      rcases hcase with hx | ⟨t', hx⟩ | ⟨t', hx⟩ <;> rcases upd_eq hx with ⟨_, hx⟩ | ⟨hne, hx⟩
      · cases hx
      · exact ⟨hne, Or.inl hx⟩
      · cases hx
      · exact ⟨hne, Or.inr (Or.inl ⟨t', hx⟩)⟩
      · cases hx
      · exact ⟨hne, Or.inr (Or.inr ⟨t', hx⟩)⟩
    refine h.early i acc hcase'.2 ?_
    rcases h4 with h4 | ⟨acc', h4⟩ <;> rw [h4] at hm
    · exact hm
    · simp only [List.mem_append, List.mem_singleton, Ev.answered.injEq] at hm
      rcases hm with hm | ⟨e, _⟩
      · exact hm
      · exact absurd e hcase'.1
  · rw [h3]; intro i t' f' m hx hb
    have hb := hbef _ _ _ hb
    rcases upd_eq hx with ⟨e, hx⟩ | ⟨_, hx⟩
    · cases hx; rw [e] at hb; exact h.k1 j t none m hj hb
    · exact h.k1 i t' f' m hx hb
  · rw [h3, h2]; intro i t' m hw hb
    have hb := hbef _ _ _ hb
    rcases upd_eq hw with ⟨_, hx⟩ | ⟨_, hx⟩
    · cases hx
    · exact h.k2 i t' m hx hb
  · rcases h4 with h4 | ⟨acc, h4⟩ <;> rw [h4]
    · exact h.fin
    · exact fin_snoc h.fin (by intro _ _ _ _ he; cases he)

theorem Uni.frame {s s' : St} (h : Uni s) (h1 : s'.owner = s.owner) (h2 : s'.tariffs = s.tariffs) (h3 : s'.th = s.th)
    (h4 : s'.tr = s.tr) (h5 : s'.cvs = s.cvs) (h6 : s'.ub = s.ub) : Uni s' := by
  refine ⟨h.inv.frame h1 h2 h3 h4, ?_, ?_, by rw [h6]; exact h.noub, ?_, ?_, ?_, ?_⟩
  · rw [h3]; exact h.uniq
  · rw [h3, h5]; exact h.cv
  · rw [h3, h4]; exact h.early
  · rw [h3, h4]; exact h.k1
  · rw [h2, h3, h4]; exact h.k2
  · rw [h4]; exact h.fin

theorem Uni.recv {s : St} (h : Uni s) (hi : Inv s.recv) : Uni s.recv := by
  unfold St.recv at hi ⊢
  split
  · exact h
  · rename_i j acc rest heq
    rw [heq] at hi
    dsimp only at hi ⊢
    split
    · rename_i t hj
      have hj : s.th j = .asked t none := hj
      have hi : Inv (match s.th j with
        | .asked t none => { s with
            inbox := rest
            th := upd s.th j (.asked t (some (if acc = true then .accepted else .refused)))
            tr := s.tr ++ [.answered j acc] }
        | _ => { s with inbox := rest }) := hi
      rw [hj] at hi
      exact Uni.setFut (s := s) h hj hi rfl rfl rfl rfl (Or.inr ⟨acc, rfl⟩)
    · exact h.frame rfl rfl rfl rfl rfl rfl
  · exact h.frame rfl rfl rfl rfl rfl rfl

theorem Uni.store {s : St} (h : Uni s) (ho : s.owner = none) (t : Tok) (m : Nat) (hi : Inv (s.store t m)) :
    Uni (s.store t m) := by
  have hno : ∀ i t' f', s.th i ≠ .asked t' f' := by
    intro i t' f' hi; have := h.inv.own2 i t' f' hi; rw [ho] at this; cases this
  have h1 : (s.store t m).th = s.th := by unfold St.store; dsimp only; split <;> rfl
  have h2 : (s.store t m).cvs = s.cvs := by unfold St.store; dsimp only; split <;> rfl
  have h3 : (s.store t m).ub = s.ub := by unfold St.store; dsimp only; split <;> rfl
  have h4 : (s.store t m).tr = s.tr ++ [.handled t m] := by unfold St.store; dsimp only; split <;> rfl
  have h5 : (s.store t m).tariffs = if s.cvs t = true then upd s.tariffs t (some m) else s.tariffs := by
    unfold St.store; dsimp only; split <;> rfl
  refine ⟨hi, by rw [h1]; exact h.uniq, by rw [h1, h2]; exact h.cv, by rw [h3]; exact h.noub, ?_, ?_, ?_, ?_⟩
  · rw [h1, h4]; intro i acc hc hm
    simp only [List.mem_append, List.mem_singleton, reduceCtorEq, or_false] at hm
    exact h.early i acc hc hm
  · rw [h1]; intro i t' f' m' hx; exact absurd hx (hno i t' f')
  · rw [h1, h4, h5]; intro i t' m' hw hb
    by_cases e : t' = t
    · subst e
      rw [if_pos (h.cv i t' hw), upd_same]; simp
    · have hb : Before s.tr (.answered i true) (.handled t' m') := by
        rcases hb.snoc with hb | ⟨hb, _⟩
        · exact hb
        · simp only [Ev.handled.injEq] at hb; exact absurd hb.1 e
      have := h.k2 i t' m' hw hb
      split
      · rw [upd_other e]; exact this
      · exact this
  · rw [h4]; exact fin_snoc h.fin (by intro _ _ _ _ he; cases he)

theorem Uni.step {s : St} (h : Uni s) (op : Op) (hok : Single s op) : Uni (step s op) := by
  have hi := h.inv.step op
  unfold Verif.UserPrice.step at hi ⊢
  rw [if_neg (by simp [h.noub])] at hi ⊢
  cases op with
  | begin j t =>
    dsimp only at hi ⊢
    split
    · rename_i hf
      rw [if_pos hf] at hi
      have key : ∀ {i x}, upd s.th j (.want t) i = x → (∀ t, x ≠ .want t) → s.th i = x := by
        intro i x hi hx
        rcases upd_eq hi with ⟨_, h1⟩ | ⟨_, h1⟩
        · exact absurd h1.symm (hx t)
        · exact h1
      refine ⟨hi, ?_, ?_, h.noub, ?_, ?_, ?_, h.fin⟩
      · intro i k t' h1 h2
        have hcase : ∀ i t', (upd s.th j (.want t) i).tok = some t' → (i = j ∧ t' = t) ∨ (i ≠ j ∧ (s.th i).tok = some t') := by
          intro i t' hx
          by_cases e : i = j
          · subst e; rw [upd_same] at hx; cases hx; exact Or.inl ⟨rfl, rfl⟩
          · rw [upd_other e] at hx; exact Or.inr ⟨e, hx⟩
        rcases hcase i t' h1 with ⟨e1, e2⟩ | ⟨_, h1⟩ <;> rcases hcase k t' h2 with ⟨e3, e4⟩ | ⟨_, h2⟩
        · rw [e1, e3]
        · rw [e2] at h2; exact absurd h2 (hok k)
        · rw [e4] at h1; exact absurd h1 (hok i)
        · exact h.uniq i k t' h1 h2
      · intro i t' hw; exact h.cv i t' (key hw (by intro _ hc; cases hc))
      · intro i acc hcase
        refine h.early i acc ?_
        rcases hcase with hx | ⟨t', hx⟩ | ⟨t', hx⟩ <;> rcases upd_eq hx with ⟨e, hx⟩ | ⟨_, hx⟩
        · cases hx
        · exact Or.inl hx
        · rw [e]; exact Or.inl hf
        · exact Or.inr (Or.inl ⟨t', hx⟩)
        · cases hx
        · exact Or.inr (Or.inr ⟨t', hx⟩)
      · intro i t' f' m hx; exact h.k1 i t' f' m (key hx (by intro _ hc; cases hc))
      · intro i t' m hw; exact h.k2 i t' m (key hw (by intro _ hc; cases hc))
    · exact h
  | lock j =>
    dsimp only at hi ⊢
    split
    · rename_i t h1 h2
      rw [h1, h2] at hi
      exact h.lock h1 hi
    · exact h
  | giveUp j =>
    dsimp only at hi ⊢
    split
    · rename_i t h1
      rw [h1] at hi
      exact Uni.setFut (s := s) h h1 hi rfl rfl rfl rfl (Or.inl rfl)
    · exact h
  | futTimeout j =>
    dsimp only at hi ⊢
    split
    · rename_i t h1
      rw [h1] at hi
      exact h.release h1 _ hi
    · exact h
  | proceed j =>
    dsimp only at hi ⊢
    split
    · rename_i t a h1
      rw [h1] at hi
      exact h.proceed h1 hi
    · exact h
  | wake j timeUp =>
    dsimp only at hi ⊢
    split
    · rename_i t h1 h2
      rw [h1, h2] at hi
      exact h.wake h1 h2 timeUp hi
    · exact h
  | arrive m => exact h.frame rfl rfl rfl rfl rfl rfl
  | recv =>
    dsimp only at hi ⊢
    split
    · rename_i hb
      rw [if_pos hb] at hi
      exact h.recv hi
    · exact h
  | store =>
    dsimp only at hi ⊢
    split
    · rename_i t m h1 h2
      rw [h1, h2] at hi
      exact h.store h2 t m hi
    · exact h

theorem Uni.run {s : St} (h : Uni s) (ops : List Op) (hok : Along Single s ops) : Uni (run s ops) := by
  induction ops generalizing s with
  | nil => exact h
  | cons op ops ih => exact ih (h.step op hok.1) hok.2

theorem init_uni : Uni init := by
  refine ⟨init_inv, ?_, ?_, rfl, ?_, ?_, ?_, ?_⟩
  · intro i j t h; simp [init, Th.tok] at h
  · intro j t h; simp [init] at h
  · intro j acc _ h; simp [init] at h
  · intro j t f m h; simp [init] at h
  · intro j t m h; simp [init] at h
  · intro a b j t r m h; simp [init] at h

/-! ## C210 -/

/-- **C210, partial.** (Missing: concurrent authorizations of the same token, see `C210_violated_same_token`, and prices
that arrive before the answer to the Authorize.req, see `C210_violated_early`.) If authorizations of the same token do not
overlap, then in any schedule nothing undefined happens, and an authorization for which the CSMS's acceptance was
processed and, later, a SetUserPrice for its token, returns with a tariff message of the CSMS. -/
theorem C210_price_kept_partial (ops : List Op) (hok : Along Single init ops) :
    (run init ops).ub = false ∧
    ∀ a b c d j t m r, (run init ops).tr = a ++ .answered j true :: b ++ .handled t m :: c ++ .ended j t r :: d →
      ∃ m', r = .tariff m' := by
  have h := init_uni.run ops hok
  refine ⟨h.noub, ?_⟩
  intro a b c d j t m r he
  exact h.fin (a ++ .answered j true :: b ++ .handled t m :: c) d j t r m he ⟨a, b, c, rfl⟩

example : Along Single init twoTokens ∧
    (run init twoTokens).tr =
      [.asked 0 "A"] ++ .answered 0 true :: [.asked 1 "B", .answered 1 true] ++ .handled "A" 7 ::
      [.handled "B" 8, .ended 1 "B" (.tariff 8)] ++ .ended 0 "A" (.tariff 7) :: [] := by
  refine ⟨⟨?_, ?_, trivial, trivial, trivial, trivial, trivial, trivial, trivial, trivial, trivial, trivial, trivial, trivial,
    trivial, trivial, trivial, trivial, trivial⟩, by decide +kernel⟩
  · intro i; simp [init, Th.tok]
  · intro i
    by_cases e : i = 0
    · subst e; simp [step, init, upd, Th.tok]
    · simp [step, init, upd, Th.tok, e]

/-- Two authorizations of the same token overlap (for example at two connectors); the first one returns after its waiting
time, and destroys the condition variable the second one waits on. -/
def sameToken : List Op :=
  [.begin 0 "A", .lock 0, .arrive (.conf 0 true), .recv, .proceed 0,
   .begin 1 "A", .lock 1, .arrive (.conf 1 true), .recv, .proceed 1, .wake 0 true]

/-- The price for the first authorization arrives in time, but the second authorization of the same token discards it before
the first one gets the mutex again. -/
def sameTokenLost : List Op :=
  [.begin 0 "A", .begin 1 "A", .lock 0, .arrive (.conf 0 true), .recv, .proceed 0,
   .arrive (.price "A" 7), .recv, .store, .lock 1, .arrive (.conf 1 false), .recv, .proceed 1, .wake 0 true]

/-- **C210 is violated by overlapping authorizations of one token**: undefined behaviour, or a price that was processed in
time is lost. -/
theorem C210_violated_same_token :
    (∃ ops, (run init ops).ub = true) ∧
    ∃ ops a b c d j t m, (run init ops).ub = false ∧
      (run init ops).tr = a ++ .answered j true :: b ++ .handled t m :: c ++ .ended j t .default :: d := by
  refine ⟨⟨sameToken, by decide +kernel⟩, sameTokenLost, [.asked 0 "A"], [],
    [.asked 1 "A", .answered 1 false, .ended 1 "A" .refused], [], 0, "A", 7, ?_, ?_⟩ <;> decide +kernel

/-- The CSMS accepts the token and sends the price first (it may: nothing orders a CALL of the CSMS after its CALLRESULT). -/
def earlyPrice : List Op :=
  [.begin 0 "A", .lock 0, .arrive (.price "A" 7), .arrive (.conf 0 true), .recv, .recv, .store, .recv, .giveUp 0, .proceed 0,
   .store, .recv]

/-- **C210 and C211 are violated by a price that arrives before the answer**: the processing thread waits for the mutex that
the authorization holds while it waits for the answer, which is behind the price. The authorization ends without an
answer although the CSMS accepted the token, and the price is dropped. -/
theorem C210_violated_early : ∃ ops, .arrive (.conf 0 true) ∈ ops ∧ .arrive (.price "A" 7) ∈ ops ∧
    (run init ops).inbox = [] ∧ (run init ops).tr = [.asked 0 "A", .ended 0 "A" .noAnswer, .handled "A" 7] := by
  refine ⟨earlyPrice, by simp [earlyPrice], by simp [earlyPrice], ?_, ?_⟩ <;> decide +kernel

/-! ## C211 -/

/-- Authorization `j` waits for its answer, and the processing thread for the mutex. -/
def Stuck (s : St) (j : Nat) (t : Tok) : Prop :=
  s.owner = some j ∧ (s.th j = .asked t none ∨ s.th j = .asked t (some .none)) ∧ s.blocked ≠ none

theorem stuck_step {s : St} {j : Nat} {t : Tok} (hi : Inv s) (h : Stuck s j t) (op : Op) :
    Stuck (step s op) j t ∨ (step s op).th j = .ended t .noAnswer := by
  obtain ⟨ho, hj, hb⟩ := h
  have hone : ∀ i t' f', s.th i = .asked t' f' → i = j := by
    intro i t' f' h1
    have := hi.own2 i t' f' h1
    rw [ho] at this; cases this; rfl
  have same : Stuck s j t := ⟨ho, hj, hb⟩
  unfold step
  split
  · exact Or.inl same
  · cases op with
    | begin i t' =>
      dsimp only
      split
      · rename_i hf
        have hne : j ≠ i := by rintro rfl; rw [hf] at hj; rcases hj with h | h <;> cases h
        refine Or.inl ⟨ho, ?_, hb⟩
        show upd s.th i _ j = _ ∨ upd s.th i _ j = _
        rw [upd_other hne]; exact hj
      · exact Or.inl same
    | lock i =>
      dsimp only
      split
      · rename_i h2; rw [ho] at h2; cases h2
      · exact Or.inl same
    | giveUp i =>
      dsimp only
      split
      · rename_i t' h1
        have e := hone i t' _ h1
        subst e
        rw [h1] at hj
        have : t' = t := by rcases hj with h | h <;> cases h; rfl
        subst this
        exact Or.inl ⟨ho, Or.inr (upd_same _ _ _), hb⟩
      · exact Or.inl same
    | futTimeout i =>
      dsimp only
      split
      · rename_i t' h1
        have e := hone i t' _ h1
        subst e
        rw [h1] at hj
        have : t' = t := by rcases hj with h | h <;> cases h; rfl
        subst this
        exact Or.inr (upd_same _ _ _)
      · exact Or.inl same
    | proceed i =>
      dsimp only
      split
      · rename_i t' a h1
        have e := hone i t' _ h1
        subst e
        rw [h1] at hj
        rcases hj with h | h
        · cases h
        · cases h; exact Or.inr (upd_same _ _ _)
      · exact Or.inl same
    | wake i timeUp =>
      dsimp only
      split
      · rename_i h2; rw [ho] at h2; cases h2
      · exact Or.inl same
    | arrive m => exact Or.inl ⟨ho, hj, hb⟩
    | recv =>
      dsimp only
      exact Or.inl same
    | store =>
      dsimp only
      split
      · rename_i h2; rw [ho] at h2; cases h2
      · exact Or.inl same

theorem ended_stays {s : St} {j : Nat} {t : Tok} {r : Res} (h : s.th j = .ended t r) (op : Op) : (step s op).th j = .ended t r := by
  have key : ∀ (i : Nat) (x : Th), (s.th i ≠ .ended t r) → upd s.th i x j = .ended t r := by
    intro i x hx
    have : j ≠ i := by rintro rfl; exact hx h
    rw [upd_other this]; exact h
  unfold step
  split
  · exact h
  · cases op with
    | begin i t' => dsimp only; split
                    · rename_i hf; exact key i _ (by rw [hf]; intro hc; cases hc)
                    · exact h
    | lock i => dsimp only; split
                · rename_i h1 _; exact key i _ (by rw [h1]; intro hc; cases hc)
                · exact h
    | giveUp i => dsimp only; split
                  · rename_i h1; exact key i _ (by rw [h1]; intro hc; cases hc)
                  · exact h
    | futTimeout i => dsimp only; split
                      · rename_i h1; exact key i _ (by rw [h1]; intro hc; cases hc)
                      · exact h
    | proceed i =>
      dsimp only; split
      · rename_i t' a h1
        have hk : ∀ x, upd s.th i x j = .ended t r := fun x => key i x (by rw [h1]; intro hc; cases hc)
        cases a with
        | refused => exact hk _
        | none => exact hk _
        | accepted =>
          simp only [St.proceed]
          split
          · unfold St.take
            dsimp only
            split <;> exact hk _
          · exact hk _
      · exact h
    | wake i timeUp =>
      dsimp only; split
      · rename_i t' h1 _
        have hk : ∀ x, upd s.th i x j = .ended t r := fun x => key i x (by rw [h1]; intro hc; cases hc)
        unfold St.wake
        split
        · unfold St.take
          dsimp only
          split <;> exact hk _
        · exact h
      · exact h
    | arrive m => exact h
    | recv =>
      dsimp only; split
      · unfold St.recv
        split
        · exact h
        · rename_i i acc rest _
          dsimp only
          split
          · rename_i t' h1; exact key i _ (by
              have h1 : s.th i = .asked t' none := h1
              rw [h1]; intro hc; cases hc)
          · exact h
        · exact h
      · exact h
    | store =>
      dsimp only; split
      · unfold St.store
        dsimp only
        split <;> exact h
      · exact h

/-- **C211 is violated, always.** Whenever the processing thread takes a SetUserPrice (for any token) while an authorization
waits for the answer of the CSMS, then, whatever happens afterwards and whatever the CSMS answers, that authorization is still
waiting, with no further message processed, or it has ended without an answer. -/
theorem C211_violated (ops more : List Op) (j : Nat) (t : Tok)
    (h1 : (run init ops).th j = .asked t none) (h2 : (run init ops).blocked ≠ none) :
    let s := run (run init ops) more
    (s.blocked ≠ none ∧ (s.th j = .asked t none ∨ s.th j = .asked t (some .none))) ∨ s.th j = .ended t .noAnswer := by
  have hI := init_inv.run ops
  have hS : Stuck (run init ops) j t := ⟨hI.own2 j t none h1, Or.inl h1, h2⟩
  suffices h : ∀ more s, Inv s → (Stuck s j t ∨ s.th j = .ended t .noAnswer) →
      (Stuck (run s more) j t ∨ (run s more).th j = .ended t .noAnswer) by
    rcases h more _ hI (Or.inl hS) with h | h
    · exact Or.inl ⟨h.2.2, h.2.1⟩
    · exact Or.inr h
  intro more
  induction more with
  | nil => intro s _ h; exact h
  | cons op more ih =>
    intro s hi h
    refine ih (step s op) (hi.step op) ?_
    rcases h with h | h
    · exact stuck_step hi h op
    · exact Or.inr (ended_stays h op)

example : (run init (earlyPrice.take 5)).th 0 = .asked "A" none ∧ (run init (earlyPrice.take 5)).blocked = some ("A", 7) ∧
    (run init (earlyPrice.take 5)).inbox = [.conf 0 true] := by decide +kernel

/-- **C211, partial.** (Missing: messages that arrive while an authorization waits for its answer.) As long as no
authorization waits for an answer of the CSMS, the processing thread gets through with the message it has taken, in one step. -/
theorem C211_processing_partial (ops : List Op) (hub : (run init ops).ub = false)
    (h : ∀ j t f, (run init ops).th j ≠ .asked t f) :
    (run init (ops ++ [.store])).blocked = none := by
  have hI := init_inv.run ops
  have ho : (run init ops).owner = none := by
    cases e : (run init ops).owner with
    | none => rfl
    | some j => obtain ⟨t, f, h1⟩ := hI.own1 j e; exact absurd h1 (h j t f)
  have : run init (ops ++ [.store]) = step (run init ops) .store := by simp [run]
  rw [this]
  unfold step
  rw [if_neg (by simp [hub])]
  dsimp only
  cases hb : (run init ops).blocked with
  | none => exact hb
  | some p =>
    rw [ho]
    show (St.store _ p.1 p.2).blocked = none
    unfold St.store
    dsimp only
    split <;> rfl

example : (run init (twoTokens.take 15)).blocked = some ("B", 8) ∧ (run init (twoTokens.take 15)).ub = false ∧
    (run init (twoTokens.take 15)).th 0 = .waiting "A" ∧ (run init (twoTokens.take 15)).th 1 = .waiting "B" ∧
    (run init (twoTokens.take 16)).blocked = none := by decide +kernel

end Verif.UserPrice
