import Verif.Log.Spec
/-! Helper lemmas about the rotation of logs. -/
set_option linter.unusedSimpArgs false

namespace Verif.Log

open Verif.Conf16 (Text stoi Stoi bytes)

theorem suffix_inj : ∀ i < 12, ∀ j < 12, suffix i = suffix j → i = j := by decide +kernel

theorem suffix_lt : ∀ i < 11, ∀ j < 11, i < j → suffix i < suffix j := by decide +kernel

theorem suffix_stoi : ∀ i < 10, stoi ((suffix (i + 1)).filter (fun c => c != '.')) = .val (i : Int) ∧ suffix (i + 2) = '.' :: (toString ((i : Int) + 1)).toList := by
  decide +kernel

theorem newName_suffix {cfg : Cfg} {stamp : Text} (hd : cfg.date = false) {i : Nat} (hi : i < 11) : newName cfg stamp (suffix i) = .to (suffix (i + 1)) := by
  unfold newName
  rw [hd]
  cases i with
  | zero => rfl
  | succ i =>
    obtain ⟨h1, h2⟩ := suffix_stoi i (by omega)
    rw [if_neg (by simp [suffix])]
    simp only [Bool.false_eq_true, if_false, h1]
    rw [if_neg (by omega), h2]

theorem le_trans' {a b c : Text} (h1 : a ≤ b) (h2 : b ≤ c) : a ≤ c := List.le_trans h1 h2

theorem insertDesc_perm (n : Text) : ∀ l, (insertDesc n l).Perm (n :: l) := by
  intro l
  induction l with
  | nil => exact .refl _
  | cons m r ih =>
    unfold insertDesc
    split
    · exact (ih.cons m).trans (.swap n m r)
    · exact .refl _

theorem descending_perm (l : List Text) : (descending l).Perm l := by
  induction l with
  | nil => exact .refl _
  | cons n l ih => exact (insertDesc_perm n _).trans (ih.cons n)

theorem insertDesc_sorted (n : Text) : ∀ l, l.Pairwise (fun a b => b ≤ a) → (insertDesc n l).Pairwise (fun a b => b ≤ a) := by
  intro l
  induction l with
  | nil => intro _; simp [insertDesc]
  | cons m r ih =>
    intro h
    have hc := List.pairwise_cons.1 h
    unfold insertDesc
    split
    · rename_i hlt
      refine List.pairwise_cons.2 ⟨fun x hx => ?_, ih hc.2⟩
      rcases List.mem_cons.1 ((insertDesc_perm n r).mem_iff.1 hx) with rfl | hx
      · exact List.le_of_lt hlt
      · exact hc.1 x hx
    · rename_i hle
      refine List.pairwise_cons.2 ⟨fun x hx => ?_, h⟩
      rcases List.mem_cons.1 hx with rfl | hx
      · exact hle
      · exact le_trans' (hc.1 x hx) hle

theorem descending_sorted (l : List Text) : (descending l).Pairwise (fun a b => b ≤ a) := by
  induction l with
  | nil => exact .nil
  | cons n l ih => exact insertDesc_sorted n _ ih

theorem descending_eq {l m : List Text} (h : l.Perm m) (hm : m.Pairwise (fun a b => b < a)) : descending l = m := by
  refine List.Perm.eq_of_pairwise (le := fun a b : Text => b ≤ a) ?_ (descending_sorted l) ?_ ((descending_perm l).trans h)
  · intro a b _ _ h1 h2
    exact List.le_antisymm h2 h1
  · exact hm.imp List.le_of_lt

/-- The files with the names for the numbers. -/
def canon (fs : List (Nat × List Item)) : Dir := fs.map (fun f => (suffix f.1, f.2))

theorem rename_perm {d d' : Dir} (h : d.Perm d') (a b : Text) : (rename d a b).Perm (rename d' a b) := (h.filter _).map _

theorem remove_perm {d d' : Dir} (h : d.Perm d') (a : Text) : (remove d a).Perm (remove d' a) := h.filter _

theorem append_perm {d d' : Dir} (h : d.Perm d') (es : List Item) : (append d es).Perm (append d' es) := h.map _

theorem rename_canon {a b : List (Nat × List Item)} {i : Nat} {c : List Item} (ha : ∀ f ∈ a, f.1 < i) (hb : ∀ f ∈ b, i + 1 < f.1) (h12 : ∀ f ∈ b, f.1 < 12) (hi : i < 11) :
    rename (canon (a ++ (i, c) :: b)) (suffix i) (suffix (i + 1)) = canon (a ++ (i + 1, c) :: b) := by
  have hne : ∀ j, j < 12 → j ≠ i + 1 → (suffix j != suffix (i + 1)) = true := by
    intro j hj h
    rw [bne_iff_ne]
    intro he
    exact h (suffix_inj j hj (i + 1) (by omega) he)
  have hne2 : ∀ j, j < 12 → j ≠ i → suffix j ≠ suffix i := by
    intro j hj h he
    exact h (suffix_inj j hj i (by omega) he)
  unfold rename canon
  simp only [List.map_append, List.map_cons, List.filter_append, List.filter_cons, hne i (by omega) (by omega), if_true]
  have e1 : List.filter (fun f => f.1 != suffix (i + 1)) (List.map (fun f => (suffix f.1, f.2)) a) = List.map (fun f => (suffix f.1, f.2)) a := by
    rw [List.filter_eq_self]
    intro f hf
    obtain ⟨g, hg, rfl⟩ := List.mem_map.1 hf
    have := ha g hg
    exact hne g.1 (by omega) (by omega)
  have e2 : List.filter (fun f => f.1 != suffix (i + 1)) (List.map (fun f => (suffix f.1, f.2)) b) = List.map (fun f => (suffix f.1, f.2)) b := by
    rw [List.filter_eq_self]
    intro f hf
    obtain ⟨g, hg, rfl⟩ := List.mem_map.1 hf
    have := hb g hg
    have := h12 g hg
    exact hne g.1 (by omega) (by omega)
  rw [e1, e2]
  simp only [List.map_append, List.map_cons, List.map_map, if_true]
  congr 1
  · refine List.map_congr_left fun f hf => ?_
    have := ha f hf
    simp only [Function.comp, if_neg (hne2 f.1 (by omega) (by omega))]
  · congr 1
    refine List.map_congr_left fun f hf => ?_
    have := hb f hf
    have := h12 f hf
    simp only [Function.comp, if_neg (hne2 f.1 (by omega) (by omega))]

/-- The numbers are increased. -/
def shift (fs : List (Nat × List Item)) : List (Nat × List Item) := fs.map (fun f => (f.1 + 1, f.2))

theorem shift_lt {fs : List (Nat × List Item)} {n : Nat} (h : ∀ f ∈ fs, f.1 < n) : ∀ f ∈ shift fs, f.1 < n + 1 := by
  intro f hf
  obtain ⟨g, hg, rfl⟩ := List.mem_map.1 hf
  have := h g hg
  show g.1 + 1 < n + 1
  omega

theorem shift_gt {fs : List (Nat × List Item)} {n : Nat} (h : ∀ f ∈ fs, n < f.1) : ∀ f ∈ shift fs, n + 1 < f.1 := by
  intro f hf
  obtain ⟨g, hg, rfl⟩ := List.mem_map.1 hf
  have := h g hg
  show n + 1 < g.1 + 1
  omega

theorem shift_sorted {fs : List (Nat × List Item)} (h : fs.Pairwise (fun a b => a.1 < b.1)) : (shift fs).Pairwise (fun a b => a.1 < b.1) := by
  unfold shift
  rw [List.pairwise_map]
  exact h.imp (fun h => by omega)

def renamed (st : Status) : Status := if st = .notRotated then .rotated else st

theorem renamed_idem (st : Status) : renamed (renamed st) = renamed st := by cases st <;> rfl

/-- The loop over files with small numbers, from the greatest to the least. -/
theorem renameAll_canon {cfg : Cfg} {stamp : Text} (hd : cfg.date = false) : ∀ (a b : List (Nat × List Item)) (d : Dir) (st : Status),
    (a ++ b).Pairwise (fun x y => x.1 < y.1) → (∀ f ∈ a ++ b, f.1 < 11) → d.Perm (canon (a ++ shift b)) →
    ∃ d', renameAll cfg stamp (a.reverse.map (fun f => suffix f.1)) (d, st) = some (d', if a = [] then st else renamed st) ∧ d'.Perm (canon (shift (a ++ b))) := by
  intro a
  generalize hn : a.length = n
  induction n generalizing a with
  | zero =>
    intro b d st _ _ hp
    have : a = [] := List.length_eq_zero_iff.1 hn
    subst this
    exact ⟨d, rfl, hp⟩
  | succ n ih =>
    intro b d st hs h11 hp
    have hne : a ≠ [] := by intro h; subst h; simp at hn
    obtain ⟨a', x, rfl⟩ : ∃ a' x, a = a' ++ [x] := ⟨a.dropLast, a.getLast hne, (List.dropLast_concat_getLast hne).symm⟩
    have hlen : a'.length = n := by simp at hn; exact hn
    have hs' : (a' ++ x :: b).Pairwise (fun x y => x.1 < y.1) := by simpa using hs
    have h11' : ∀ f ∈ a' ++ x :: b, f.1 < 11 := by simpa using h11
    have hx := h11' x (by simp)
    have hap := List.pairwise_append.1 hs'
    have hlt : ∀ f ∈ a', f.1 < x.1 := fun f hf => hap.2.2 f hf x (by simp)
    have hgt : ∀ f ∈ b, x.1 < f.1 := fun f hf => (List.pairwise_cons.1 hap.2.1).1 f hf
    have hstep : newName cfg stamp (suffix x.1) = .to (suffix (x.1 + 1)) := newName_suffix hd hx
    have hr : renameAll cfg stamp ((a' ++ [x]).reverse.map (fun f => suffix f.1)) (d, st) =
        renameAll cfg stamp (a'.reverse.map (fun f => suffix f.1)) (rename d (suffix x.1) (suffix (x.1 + 1)), renamed st) := by
      rw [List.reverse_append, List.reverse_singleton, List.singleton_append, List.map_cons]
      rw [show renameAll cfg stamp (suffix x.1 :: a'.reverse.map (fun f => suffix f.1)) (d, st) = (match newName cfg stamp (suffix x.1) with
        | .skip => renameAll cfg stamp (a'.reverse.map (fun f => suffix f.1)) (d, st)
        | .to m => renameAll cfg stamp (a'.reverse.map (fun f => suffix f.1)) (rename d (suffix x.1) m, if st = .notRotated then .rotated else st)
        | .overflow => none) from rfl, hstep]
      rfl
    rw [hr]
    have hp2 : (rename d (suffix x.1) (suffix (x.1 + 1))).Perm (canon (a' ++ shift (x :: b))) := by
      have e : a' ++ [x] ++ shift b = a' ++ (x.1, x.2) :: shift b := by simp
      rw [e] at hp
      have := rename_perm hp (suffix x.1) (suffix (x.1 + 1))
      rw [rename_canon hlt (shift_gt hgt) (shift_lt (fun f hf => h11' f (by simp [hf]))) hx] at this
      exact this
    obtain ⟨d', h1, h2⟩ := ih a' hlen (x :: b) _ (renamed st) hs' h11' hp2
    refine ⟨d', ?_, by simpa using h2⟩
    rw [h1]
    by_cases h : a' = [] <;> simp [h, renamed_idem]

/-- The same, interrupted after some of the files. -/
theorem renamings_canon {cfg : Cfg} {stamp : Text} (hd : cfg.date = false) (fs : List (Nat × List Item)) (h11 : ∀ f ∈ fs, f.1 < 11) :
    renamings cfg stamp (fs.reverse.map (fun f => suffix f.1)) = fs.reverse.map (fun f => FsOp.rename (suffix f.1) (suffix (f.1 + 1))) := by
  unfold renamings
  have h11' : ∀ f ∈ fs.reverse, f.1 < 11 := fun f hf => h11 f (List.mem_reverse.1 hf)
  generalize fs.reverse = l at h11'
  induction l with
  | nil => rfl
  | cons x r ih =>
    simp only [List.map_cons, List.filterMap_cons, newName_suffix hd (h11' x (by simp))]
    rw [ih (fun f hf => h11' f (by simp [hf]))]

theorem holds_names {d : Dir} {fs : List (Nat × List Item)} (h : d.Perm (canon fs)) (hs : fs.Pairwise (fun a b => a.1 < b.1)) (h11 : ∀ f ∈ fs, f.1 < 11) :
    descending (names d) = fs.reverse.map (fun f => suffix f.1) := by
  apply descending_eq
  · have h1 : (names d).Perm (fs.map (fun f => suffix f.1)) := by
      have := h.map (fun f : File => f.1)
      unfold canon at this
      rw [List.map_map] at this
      exact this
    exact h1.trans ((List.reverse_perm fs).symm.map _)
  · rw [List.pairwise_map, List.pairwise_reverse]
    refine List.Pairwise.imp_of_mem ?_ hs
    intro a b ha hb h
    exact suffix_lt a.1 (h11 a ha) b.1 (h11 b hb) h

theorem remove_last {a : List (Nat × List Item)} {x : Nat × List Item} (hs : (a ++ [x]).Pairwise (fun a b => a.1 < b.1)) (h11 : ∀ f ∈ a ++ [x], f.1 < 11) :
    remove (canon (a ++ [x])) (suffix x.1) = canon a := by
  unfold remove canon
  rw [List.map_append, List.filter_append]
  have e1 : List.filter (fun f => f.1 != suffix x.1) (List.map (fun f => (suffix f.1, f.2)) a) = List.map (fun f => (suffix f.1, f.2)) a := by
    rw [List.filter_eq_self]
    intro f hf
    obtain ⟨g, hg, rfl⟩ := List.mem_map.1 hf
    have h1 := (List.pairwise_append.1 hs).2.2 g hg x (by simp)
    have h2 := h11 x (by simp)
    rw [bne_iff_ne]
    intro he
    have := suffix_inj g.1 (by omega) x.1 (by omega) he
    omega
  rw [e1]
  simp

/-- What is kept: without the oldest file if there are as many as allowed. -/
def kept (m : Nat) (fs : List (Nat × List Item)) : List (Nat × List Item) := if 0 < m ∧ m ≤ fs.length then fs.dropLast else fs

theorem kept_sub (m : Nat) (fs : List (Nat × List Item)) : (kept m fs).Sublist fs := by
  unfold kept
  split
  · exact List.dropLast_sublist fs
  · exact List.Sublist.refl fs

theorem rotateLog_canon {cfg : Cfg} {stamp : Text} (hd : cfg.date = false) {d : Dir} {fs : List (Nat × List Item)} (h : d.Perm (canon fs))
    (hs : fs.Pairwise (fun a b => a.1 < b.1)) (h11 : ∀ f ∈ fs, f.1 < 11) (hne : fs ≠ []) :
    ∃ d', rotateLog cfg stamp d = some (d', if 0 < cfg.maxCount ∧ cfg.maxCount ≤ fs.length then .rotatedWithDeletion else .rotated) ∧
      d'.Perm (canon (shift (kept cfg.maxCount fs))) := by
  have hlen : d.length = fs.length := by have := h.length_eq; unfold canon at this; rwa [List.length_map] at this
  unfold rotateLog kept
  rw [holds_names h hs h11, hlen]
  by_cases hc : 0 < cfg.maxCount ∧ cfg.maxCount ≤ fs.length
  · rw [if_pos hc, if_pos hc, if_pos hc]
    obtain ⟨a, x, rfl⟩ : ∃ a' x, fs = a' ++ [x] := ⟨fs.dropLast, fs.getLast hne, (List.dropLast_concat_getLast hne).symm⟩
    have e : (a ++ [x]).reverse.map (fun f => suffix f.1) = suffix x.1 :: a.reverse.map (fun f => suffix f.1) := by simp
    rw [e]
    dsimp only
    have hp : (remove d (suffix x.1)).Perm (canon (a ++ shift [])) := by
      have := remove_perm h (suffix x.1)
      rw [remove_last hs h11] at this
      simpa [shift] using this
    obtain ⟨d', h1, h2⟩ := renameAll_canon (cfg := cfg) (stamp := stamp) hd a [] _ .rotatedWithDeletion (by
      rw [List.append_nil]; exact (List.pairwise_append.1 hs).1) (by rw [List.append_nil]; intro f hf; exact h11 f (by simp [hf])) hp
    refine ⟨d', ?_, ?_⟩
    · rw [h1]
      by_cases ha : a = [] <;> simp [ha, renamed]
    · rw [List.append_nil] at h2
      simpa using h2
  · rw [if_neg hc, if_neg hc, if_neg hc]
    obtain ⟨d', h1, h2⟩ := renameAll_canon (cfg := cfg) (stamp := stamp) hd fs [] d .notRotated (by rw [List.append_nil]; exact hs) (by rw [List.append_nil]; exact h11)
      (by simpa [shift] using h)
    refine ⟨d', ?_, ?_⟩
    · rw [h1, if_neg hne]; rfl
    · rw [List.append_nil] at h2; exact h2

end Verif.Log
