import Verif.SmartCharging.Timeline

/-! Helper lemmas about the time-walking loops. -/

namespace Verif.SC

variable {α : Type}

/-- First entry in force at `t`. -/
def firstActive (l : List (Entry α)) (t : Int) : Option (Entry α) := l.find? (fun e => decide (e.activeAt t))

/-- Outcome of the inner loop. -/
inductive ScanSpec (cur : Int) (top : Int) (l : List (Entry α)) (r : Scan α) : Prop
  | gap (h1 : cur < r.earliest) (h2 : r.earliest ≤ top) (h3 : ∀ e ∈ l, e.stop > cur → r.earliest ≤ e.start)
  | hit (l1 l2 : List (Entry α)) (e : Entry α) (h0 : l = l1 ++ e :: l2) (h1 : r.chosen = some e) (h2 : r.earliest = e.start)
      (h3 : e.start ≤ cur) (h4 : cur < e.stop) (h5 : cur < r.next) (h6 : r.next ≤ top)
      (h7 : ∀ x ∈ l1, x.stop > cur → r.next ≤ x.start)

theorem scan_spec (cur : Int) (l : List (Entry α)) (s : Scan α) (hs : cur < s.earliest) : ScanSpec cur s.earliest l (scan cur s l) := by
  induction l generalizing s with
  | nil => exact .gap hs (Int.le_refl _) (by simp)
  | cons e rest ih =>
    unfold scan
    split
    · rename_i hc
      simp only
      split
      · rename_i hle
        exact .hit [] rest e rfl rfl rfl hle hc.2 hs (Int.le_refl _) (by simp)
      · rename_i hgt
        have hgt : cur < e.start := by omega
        cases ih ⟨e.start, s.earliest, some e⟩ hgt with
        | gap h1 h2 h3 =>
          refine .gap h1 (by simp only at h2; omega) ?_
          intro x hx hst
          rcases List.mem_cons.1 hx with rfl | hx
          · exact h2
          · exact h3 x hx hst
        | hit l1 l2 c h0 h1 h2 h3 h4 h5 h6 h7 =>
          refine .hit (e :: l1) l2 c (by rw [h0]; rfl) h1 h2 h3 h4 h5 (by simp only at h6; omega) ?_
          intro x hx hst
          rcases List.mem_cons.1 hx with rfl | hx
          · exact h6
          · exact h7 x hx hst
    · rename_i hc
      cases ih s hs with
      | gap h1 h2 h3 =>
        refine .gap h1 h2 ?_
        intro x hx hst
        rcases List.mem_cons.1 hx with rfl | hx
        · have : ¬ x.start ≤ s.earliest := fun h => hc ⟨h, hst⟩
          omega
        · exact h3 x hx hst
      | hit l1 l2 c h0 h1 h2 h3 h4 h5 h6 h7 =>
        refine .hit (e :: l1) l2 c (by rw [h0]; rfl) h1 h2 h3 h4 h5 h6 ?_
        intro x hx hst
        rcases List.mem_cons.1 hx with rfl | hx
        · have : ¬ x.start ≤ s.earliest := fun h => hc ⟨h, hst⟩
          omega
        · exact h7 x hx hst

theorem clampInt_of_le {x : Int} (h : x ≤ intMax) : clampInt x = x := by unfold clampInt; rw [if_pos h]

theorem valueAt_nil (t : Int) : valueAt ([] : List (Step α)) t = none := rfl

theorem valueAt_cons_of_later (s : Step α) (l : List (Step α)) (t : Int) (h : ∃ x ∈ l, x.start ≤ t) :
    valueAt (s :: l) t = valueAt l t := by
  unfold valueAt
  have hne : l.filter (fun s => decide (s.start ≤ t)) ≠ [] := by
    obtain ⟨x, hx, hxt⟩ := h
    intro hn
    have : x ∈ l.filter (fun s => decide (s.start ≤ t)) := by simp [hx, hxt]
    rw [hn] at this; cases this
  rw [List.filter_cons]
  split
  · rw [List.getLast?_cons]
    cases hg : (l.filter (fun s => decide (s.start ≤ t))).getLast? with
    | none => exact absurd (List.getLast?_eq_none_iff.1 hg) hne
    | some y => rfl
  · rfl

theorem valueAt_cons_of_none_later (s : Step α) (l : List (Step α)) (t : Int) (hs : s.start ≤ t) (h : ∀ x ∈ l, t < x.start) :
    valueAt (s :: l) t = some s.val := by
  unfold valueAt
  have : l.filter (fun s => decide (s.start ≤ t)) = [] := by
    rw [List.filter_eq_nil_iff]
    intro x hx
    have := h x hx
    simp; omega
  rw [List.filter_cons, if_pos (by simpa using hs), this]
  rfl

/-- What the generated list says. -/
def genValue (sorted : List (Entry α)) (gap : α) (t : Int) : α :=
  match firstActive sorted t with
  | some e => e.val
  | none => gap

theorem firstActive_gap {l : List (Entry α)} {cur b t : Int} (h : ∀ e ∈ l, e.stop > cur → b ≤ e.start) (h1 : cur ≤ t) (h2 : t < b) :
    firstActive l t = none := by
  unfold firstActive
  rw [List.find?_eq_none]
  intro e he hact
  have hact : e.activeAt t := of_decide_eq_true hact
  unfold Entry.activeAt at hact
  have := h e he (by omega)
  omega

theorem firstActive_hit {l1 l2 : List (Entry α)} {e : Entry α} {cur b t : Int}
    (h : ∀ x ∈ l1, x.stop > cur → b ≤ x.start) (h1 : cur ≤ t) (h2 : t < b) (h3 : e.start ≤ t) (h4 : t < e.stop) :
    firstActive (l1 ++ e :: l2) t = some e := by
  have h0 := firstActive_gap h h1 h2
  unfold firstActive at *
  rw [List.find?_append, h0]
  simp [List.find?_cons, Entry.activeAt, h3, h4]

theorem genLoop_succ (sorted : List (Entry α)) (now stop : Int) (gap : α) (n : Nat) (cur : Int) (h : cur < stop) :
    genLoop sorted now stop gap (n+1) cur =
      (let s := scan cur ⟨stop, stop, none⟩ sorted
      if s.earliest > cur then
        ⟨clampInt (cur - now), gap⟩ :: genLoop sorted now stop gap n s.earliest
      else match s.chosen with
        | none => []
        | some c =>
          ⟨clampInt (cur - now), c.val⟩ ::
            genLoop sorted now stop gap n (if c.stop < s.next then c.stop else s.next)) := by
  conv => lhs; unfold genLoop
  rw [if_pos h]
  rfl

/-- Starts of the generated periods and what they say. -/
theorem genLoop_spec (sorted : List (Entry α)) (now stop : Int) (gap : α) (hw : stop - now ≤ intMax) :
    ∀ (fuel : Nat) (cur : Int), now ≤ cur → stop - cur ≤ fuel →
      (∀ s ∈ genLoop sorted now stop gap fuel cur, cur - now ≤ s.start ∧ s.start < stop - now) ∧
      (genLoop sorted now stop gap fuel cur).Pairwise (fun a b => a.start < b.start) ∧
      (cur < stop → ∃ v rest, genLoop sorted now stop gap fuel cur = ⟨cur - now, v⟩ :: rest) ∧
      (∀ t, cur ≤ t → t < stop → valueAt (genLoop sorted now stop gap fuel cur) (t - now) = some (genValue sorted gap t)) := by
  intro fuel
  induction fuel with
  | zero =>
    intro cur h1 h2
    simp only [genLoop]
    refine ⟨by simp, by simp, by intro h; omega, by intro t h3 h4; omega⟩
  | succ n ih =>
    intro cur h1 h2
    by_cases hlt : cur < stop
    · -- shape of one step: head `⟨cur - now, v⟩`, tail from `cur'`
      have hcl : clampInt (cur - now) = cur - now := clampInt_of_le (by omega)
      have key : ∃ v cur', cur < cur' ∧ cur' ≤ stop ∧
          genLoop sorted now stop gap (n+1) cur = ⟨cur - now, v⟩ :: genLoop sorted now stop gap n cur' ∧
          ∀ t, cur ≤ t → t < cur' → genValue sorted gap t = v := by
        have hsc := scan_spec cur sorted ⟨stop, stop, none⟩ hlt
        rw [genLoop_succ _ _ _ _ _ _ hlt]
        simp only [hcl]
        generalize scan cur (⟨stop, stop, none⟩ : Scan α) sorted = r at hsc
        cases hsc with
        | gap g1 g2 g3 =>
          refine ⟨gap, r.earliest, g1, g2, by rw [if_pos g1], ?_⟩
          intro t t1 t2
          unfold genValue
          rw [firstActive_gap g3 t1 t2]
        | hit l1 l2 e g0 g1 g2 g3 g4 g5 g6 g7 =>
          have g6 : r.next ≤ stop := g6
          refine ⟨e.val, if e.stop < r.next then e.stop else r.next, by split <;> omega, by split <;> omega, ?_, ?_⟩
          · rw [if_neg (by omega), g1]
          · intro t t1 t2
            unfold genValue
            rw [g0, firstActive_hit g7 t1 (by split at t2 <;> omega) (by omega) (by split at t2 <;> omega)]
      obtain ⟨v, cur', k1, k2, k3, k4⟩ := key
      obtain ⟨i1, i2, i3, i4⟩ := ih cur' (by omega) (by omega)
      rw [k3]
      refine ⟨?_, ?_, ?_, ?_⟩
      · intro s hs
        rcases List.mem_cons.1 hs with rfl | hs
        · exact ⟨Int.le_refl _, by show cur - now < _; omega⟩
        · have := i1 s hs; omega
      · rw [List.pairwise_cons]
        refine ⟨?_, i2⟩
        intro s hs
        have := i1 s hs
        show cur - now < s.start
        omega
      · intro _; exact ⟨v, _, rfl⟩
      · intro t t1 t2
        by_cases hc : cur' ≤ t
        · rw [valueAt_cons_of_later, i4 t hc t2]
          obtain ⟨w, rest, hr⟩ := i3 (by omega)
          exact ⟨⟨cur' - now, w⟩, by rw [hr]; simp, by show cur' - now ≤ _; omega⟩
        · rw [valueAt_cons_of_none_later _ _ _ (by show cur - now ≤ _; omega), k4 t t1 (by omega)]
          intro x hx
          have := i1 x hx; omega
    · have : genLoop sorted now stop gap (n+1) cur = [] := by unfold genLoop; rw [if_neg hlt]
      rw [this]
      refine ⟨by simp, by simp, by intro h; omega, by intro t h3 h4; omega⟩

theorem generate_wf (sort : List (Entry α) → List (Entry α)) (ps : List (Entry α)) (now stop : Int) (gap : α)
    (h : now < stop) (hw : stop - now ≤ intMax) : WellFormed (generate sort ps now stop gap) (stop - now) := by
  unfold generate
  split
  · exact ⟨⟨gap, [], rfl⟩, by simp, by simp; omega⟩
  · obtain ⟨i1, i2, i3, _⟩ := genLoop_spec (sort ps) now stop gap hw (stop - now).toNat now (Int.le_refl _) (by omega)
    obtain ⟨v, rest, hr⟩ := i3 h
    refine ⟨⟨v, rest, by rw [hr]; simp⟩, i2, ?_⟩
    intro s hs
    have := i1 s hs; omega

theorem generate_at (sort : List (Entry α) → List (Entry α)) (hsort : SortsByStack sort) (ps : List (Entry α)) (now stop : Int)
    (gap : α) (hw : stop - now ≤ intMax) (t : Int) (h1 : now ≤ t) (h2 : t < stop) :
    valueAt (generate sort ps now stop gap) (t - now) = some (genValue (sort ps) gap t) := by
  unfold generate
  split
  · rename_i he
    subst he
    have : sort [] = [] := List.Perm.eq_nil (hsort.perm [])
    rw [this, valueAt_cons_of_none_later _ _ _ (by show (0 : Int) ≤ _; omega) (by simp)]
    rfl
  · exact (genLoop_spec (sort ps) now stop gap hw (stop - now).toNat now (Int.le_refl _) (by omega)).2.2.2 t h1 h2

theorem firstActive_mem {l : List (Entry α)} {t : Int} {e : Entry α} (h : firstActive l t = some e) : e ∈ l ∧ e.activeAt t := by
  unfold firstActive at h
  exact ⟨List.mem_of_find?_eq_some h, by simpa using List.find?_some h⟩

theorem firstActive_max {l : List (Entry α)} {t : Int} {e : Entry α} (h : firstActive l t = some e)
    (hs : l.Pairwise (fun a b => b.stack ≤ a.stack)) : ∀ x ∈ l, x.activeAt t → x.stack ≤ e.stack := by
  unfold firstActive at h
  rw [List.find?_eq_some_iff_append] at h
  obtain ⟨_, as, bs, rfl, h3⟩ := h
  intro x hx hxa
  rcases List.mem_append.1 hx with hx | hx
  · have := h3 x hx; simp [hxa] at this
  · rcases List.mem_cons.1 hx with rfl | hx
    · exact Int.le_refl _
    · rw [List.pairwise_append] at hs
      exact (List.pairwise_cons.1 hs.2.1).1 x hx

/-! ## combine -/

/-- Iterators at time `cur`: nonempty, the current element has started, later ones come strictly later in order. -/
structure Iters (cur : Int) (its : List (List (Step α))) : Prop where
  shape : ∀ it ∈ its, ∃ a rest, it = a :: rest ∧ a.start ≤ cur ∧ (∀ n ∈ rest, cur < n.start ∧ n.start < intMax) ∧
    it.Pairwise (fun a b => a.start < b.start)

theorem nextLowest_spec (cur : Int) (its : List (List (Step α))) (h : Iters cur its) :
    (∀ it ∈ its, ∀ a n rest, it = a :: n :: rest → nextLowest cur its ≤ n.start) ∧ nextLowest cur its ≤ intMax ∧
    (nextLowest cur its = intMax ∨ ∃ it ∈ its, ∃ a n rest, it = a :: n :: rest ∧ n.start = nextLowest cur its) := by
  have gen : ∀ (l : List (List (Step α))) (acc : Int), (∀ it ∈ l, it ∈ its) → acc ≤ intMax →
      let r := l.foldl (fun acc it => match it with
        | _ :: n :: _ => if n.start > cur ∧ n.start < acc then n.start else acc
        | _ => acc) acc
      r ≤ acc ∧ (∀ it ∈ l, ∀ a n rest, it = a :: n :: rest → r ≤ n.start) ∧
      (r = acc ∨ ∃ it ∈ l, ∃ a n rest, it = a :: n :: rest ∧ n.start = r) := by
    intro l
    induction l with
    | nil => intro acc _ _; exact ⟨Int.le_refl _, by simp, Or.inl rfl⟩
    | cons it l ih =>
      intro acc hm hacc
      simp only [List.foldl_cons]
      have hmem := hm it (by simp)
      obtain ⟨a, rest, e1, e2, e3, e4⟩ := h.shape it hmem
      subst e1
      cases rest with
      | nil =>
        simp only
        obtain ⟨j1, j2, j3⟩ := ih acc (fun x hx => hm x (by simp [hx])) hacc
        refine ⟨j1, ?_, ?_⟩
        · intro x hx a' n' r' hx'
          rcases List.mem_cons.1 hx with rfl | hx
          · cases hx'
          · exact j2 x hx a' n' r' hx'
        · rcases j3 with j3 | ⟨x, hx, j3⟩
          · exact Or.inl j3
          · exact Or.inr ⟨x, by simp [hx], j3⟩
      | cons n rest =>
        simp only
        have hn := e3 n (by simp)
        split
        · rename_i hc
          obtain ⟨j1, j2, j3⟩ := ih n.start (fun x hx => hm x (by simp [hx])) (by omega)
          refine ⟨by omega, ?_, ?_⟩
          · intro x hx a' n' r' hx'
            rcases List.mem_cons.1 hx with rfl | hx
            · injection hx' with h1 h2; injection h2 with h2 h3; subst h2; exact j1
            · exact j2 x hx a' n' r' hx'
          · right
            rcases j3 with j3 | ⟨x, hx, j3⟩
            · exact ⟨a :: n :: rest, by simp, a, n, rest, rfl, j3.symm⟩
            · exact ⟨x, by simp [hx], j3⟩
        · rename_i hc
          obtain ⟨j1, j2, j3⟩ := ih acc (fun x hx => hm x (by simp [hx])) hacc
          refine ⟨j1, ?_, ?_⟩
          · intro x hx a' n' r' hx'
            rcases List.mem_cons.1 hx with rfl | hx
            · injection hx' with h1 h2; injection h2 with h2 h3; subst h2
              have : ¬ n.start < acc := fun h => hc ⟨hn.1, h⟩
              omega
            · exact j2 x hx a' n' r' hx'
          · rcases j3 with j3 | ⟨x, hx, j3⟩
            · exact Or.inl j3
            · exact Or.inr ⟨x, by simp [hx], j3⟩
  obtain ⟨g1, g2, g3⟩ := gen its intMax (fun _ h => h) (Int.le_refl _)
  exact ⟨g2, g1, g3⟩

theorem filterMap_congr' {β γ : Type} {f g : β → Option γ} {l : List β} (h : ∀ x ∈ l, f x = g x) : l.filterMap f = l.filterMap g := by
  induction l with
  | nil => rfl
  | cons a l ih =>
    rw [List.filterMap_cons, List.filterMap_cons, h a (by simp), ih (fun x hx => h x (by simp [hx]))]

theorem advance_cons2 (nx : Int) (a n : Step α) (rest : List (Step α)) :
    advance nx (a :: n :: rest) = if n.start = nx then n :: rest else a :: n :: rest := rfl

theorem heads_eq (cur : Int) (its : List (List (Step α))) (h : Iters cur its) (t : Int) (ht : cur ≤ t)
    (hn : ∀ it ∈ its, ∀ a n rest, it = a :: n :: rest → t < n.start) :
    its.filterMap (fun it => valueAt it t) = heads its := by
  unfold heads
  apply filterMap_congr'
  intro it hit
  obtain ⟨a, rest, rfl, e2, e3, e4⟩ := h.shape it hit
  rw [valueAt_cons_of_none_later a rest t (by omega)]
  · rfl
  · intro x hx
    cases rest with
    | nil => cases hx
    | cons n rest =>
      have := hn _ hit a n rest rfl
      rcases List.mem_cons.1 hx with rfl | hx
      · exact this
      · have h5 := (List.pairwise_cons.1 (List.pairwise_cons.1 e4).2).1 x hx
        omega

theorem advance_iters (cur : Int) (its : List (List (Step α))) (h : Iters cur its) (nx : Int)
    (h1 : ∀ it ∈ its, ∀ a n rest, it = a :: n :: rest → nx ≤ n.start) (hc : cur < nx) : Iters nx (its.map (advance nx)) := by
  constructor
  intro it hit
  obtain ⟨it0, h0, rfl⟩ := List.mem_map.1 hit
  obtain ⟨a, rest, rfl, e2, e3, e4⟩ := h.shape it0 h0
  cases rest with
  | nil => exact ⟨a, [], rfl, by omega, by simp, List.pairwise_cons.2 ⟨by simp, .nil⟩⟩
  | cons n rest =>
    have hn := h1 _ h0 a n rest rfl
    rw [advance_cons2]
    have e5 := List.pairwise_cons.1 e4
    have e6 := List.pairwise_cons.1 e5.2
    split
    · rename_i he
      refine ⟨n, rest, rfl, by omega, ?_, e5.2⟩
      intro x hx
      have h7 := e6.1 x hx
      have h8 := e3 x (by simp [hx])
      omega
    · rename_i he
      refine ⟨a, n :: rest, rfl, by omega, ?_, e4⟩
      intro x hx
      have h8 := e3 x hx
      rcases List.mem_cons.1 hx with rfl | hx
      · omega
      · have h7 := e6.1 x hx; omega

theorem valueAt_advance (cur : Int) (its : List (List (Step α))) (h : Iters cur its) (nx : Int) (t : Int) (ht : nx ≤ t) :
    ∀ it ∈ its, valueAt (advance nx it) t = valueAt it t := by
  intro it hit
  obtain ⟨a, rest, rfl, e2, e3, e4⟩ := h.shape it hit
  cases rest with
  | nil => rfl
  | cons n rest =>
    rw [advance_cons2]
    split
    · rename_i he
      rw [valueAt_cons_of_later a (n :: rest) t ⟨n, by simp, by omega⟩]
    · rfl

theorem advance_length (nx : Int) (it : List (Step α)) : (advance nx it).length ≤ it.length := by
  unfold advance
  split
  · split <;> simp
  · simp

theorem sum_advance_le (nx : Int) (its : List (List (Step α))) :
    ((its.map (advance nx)).map List.length).sum ≤ (its.map List.length).sum := by
  induction its with
  | nil => simp
  | cons it its ih =>
    have := advance_length nx it
    simp only [List.map_cons, List.sum_cons]; omega

theorem sum_advance_lt (nx : Int) (its : List (List (Step α)))
    (h : ∃ it ∈ its, ∃ a n rest, it = a :: n :: rest ∧ n.start = nx) :
    ((its.map (advance nx)).map List.length).sum < (its.map List.length).sum := by
  induction its with
  | nil => obtain ⟨_, h, _⟩ := h; cases h
  | cons it its ih =>
    obtain ⟨x, hx, a, n, rest, e, hn⟩ := h
    simp only [List.map_cons, List.sum_cons]
    rcases List.mem_cons.1 hx with rfl | hx
    · have h1 := sum_advance_le nx its
      have h2 : (advance nx x).length < x.length := by
        subst e; rw [advance_cons2, if_pos hn]; simp
      omega
    · have h1 := ih ⟨x, hx, a, n, rest, e, hn⟩
      have h2 := advance_length nx it
      omega

/-- Everything about the result of the combine loop. `last` is what the already produced part says at `cur`. -/
theorem combineLoop_spec [DecidableEq α] (f : List α → α) :
    ∀ (fuel : Nat) (cur : Int) (its : List (List (Step α))) (last : Option α), Iters cur its →
      (its.map List.length).sum < fuel →
      let r := combineLoop f fuel cur its last
      (∀ s ∈ r, cur ≤ s.start ∧ (s.start = cur ∨ ∃ it ∈ its, ∃ n ∈ it, n.start = s.start)) ∧
      r.Pairwise (fun a b => a.start < b.start) ∧
      (last = none → ∃ v rest, r = ⟨cur, v⟩ :: rest) ∧
      (∀ t, cur ≤ t → (valueAt r t).or last = some (f (its.filterMap (fun it => valueAt it t)))) := by
  intro fuel
  induction fuel with
  | zero => intro cur its last _ h; omega
  | succ n ih =>
    intro cur its last hI hfuel
    obtain ⟨n1, n2, n3⟩ := nextLowest_spec cur its hI
    -- the recursive part
    have hrest : ∀ last', let q := (if nextLowest cur its = intMax then [] else
          combineLoop f n (nextLowest cur its) (its.map (advance (nextLowest cur its))) last')
        (∀ s ∈ q, cur < s.start ∧ ∃ it ∈ its, ∃ n ∈ it, n.start = s.start) ∧ q.Pairwise (fun a b => a.start < b.start) ∧
        (∀ t, nextLowest cur its ≠ intMax → nextLowest cur its ≤ t →
          (valueAt q t).or last' = some (f (its.filterMap (fun it => valueAt it t)))) ∧
        (∀ s ∈ q, nextLowest cur its ≤ s.start) := by
      intro last'
      by_cases hm : nextLowest cur its = intMax
      · rw [if_pos hm]
        exact ⟨by simp, by simp, fun t h => absurd hm h, by simp⟩
      · rw [if_neg hm]
        have hw : ∃ it ∈ its, ∃ a n rest, it = a :: n :: rest ∧ n.start = nextLowest cur its := by
          rcases n3 with h | h
          · exact absurd h hm
          · exact h
        generalize nextLowest cur its = nx at *
        have hcur : cur < nx := by
          obtain ⟨it, hit, a, n', rest', e, hn⟩ := hw
          obtain ⟨a2, rest2, e1, e2, e3, _⟩ := hI.shape it hit
          rw [e] at e1; injection e1 with q1 q2; subst q2
          have := e3 n' (by simp); omega
        have hI' := advance_iters cur its hI nx n1 hcur
        have hf' : ((its.map (advance nx)).map List.length).sum < n := by
          have := sum_advance_lt nx its hw; omega
        obtain ⟨r1, r2, _, r4⟩ := ih nx (its.map (advance nx)) last' hI' hf'
        refine ⟨?_, r2, ?_, fun s hs => (r1 s hs).1⟩
        · intro s hs
          have h1 := r1 s hs
          refine ⟨by omega, ?_⟩
          rcases h1.2 with h2 | ⟨it, hit, x, hx, h2⟩
          · obtain ⟨it, hit, a, n', rest', e, hn⟩ := hw
            exact ⟨it, hit, n', by rw [e]; simp, by omega⟩
          · obtain ⟨it0, h0, rfl⟩ := List.mem_map.1 hit
            refine ⟨it0, h0, x, ?_, h2⟩
            unfold advance at hx
            split at hx
            · split at hx
              · exact List.mem_cons_of_mem _ hx
              · exact hx
            · exact hx
        · intro t _ ht
          rw [r4 t ht, List.filterMap_map]
          congr 2
          apply filterMap_congr'
          intro it hit
          exact valueAt_advance cur its hI nx t ht it hit
    -- between `cur` and the next change the heads are in force
    have hconst : ∀ t, cur ≤ t → (nextLowest cur its = intMax ∨ t < nextLowest cur its) →
        f (its.filterMap (fun it => valueAt it t)) = f (heads its) := by
      intro t h1 h2
      rw [heads_eq cur its hI t h1]
      intro it hit a n' rest' e
      have h3 := n1 it hit a n' rest' e
      rcases h2 with h2 | h2
      · obtain ⟨a2, rest2, e1, e2, e3, _⟩ := hI.shape it hit
        rw [e] at e1; injection e1 with q1 q2; subst q2
        have := e3 n' (by simp); omega
      · omega
    simp only
    unfold combineLoop
    simp only
    by_cases hl : last = some (f (heads its))
    · rw [if_pos hl]
      obtain ⟨r1, r2, r3, r4⟩ := hrest last
      refine ⟨?_, r2, (fun h => by rw [hl] at h; cases h), ?_⟩
      · intro s hs
        have := r1 s hs
        exact ⟨by omega, Or.inr this.2⟩
      · intro t ht
        by_cases hc : nextLowest cur its ≠ intMax ∧ nextLowest cur its ≤ t
        · exact r3 t hc.1 hc.2
        · have hc' : nextLowest cur its = intMax ∨ t < nextLowest cur its := by
            by_cases h5 : nextLowest cur its = intMax
            · exact Or.inl h5
            · right
              by_cases h6 : nextLowest cur its ≤ t
              · exact absurd ⟨h5, h6⟩ hc
              · omega
          rw [hconst t ht hc', hl]
          have : valueAt (if nextLowest cur its = intMax then [] else
              combineLoop f n (nextLowest cur its) (its.map (advance (nextLowest cur its))) last) t = none := by
            unfold valueAt
            rw [List.filter_eq_nil_iff.2]
            · rfl
            · intro s hs
              have h7 := r4 s hs
              have h8 := r1 s hs
              rcases hc' with h9 | h9
              · rw [if_pos h9] at hs; cases hs
              · simp; omega
          rw [← hl, this]
          simp
    · rw [if_neg hl]
      obtain ⟨r1, r2, r3, r4⟩ := hrest (some (f (heads its)))
      refine ⟨?_, ?_, fun _ => ⟨_, _, rfl⟩, ?_⟩
      · intro s hs
        rcases List.mem_cons.1 hs with rfl | hs
        · exact ⟨Int.le_refl _, Or.inl rfl⟩
        · have := r1 s hs
          exact ⟨by omega, Or.inr this.2⟩
      · rw [List.pairwise_cons]
        exact ⟨fun s hs => (r1 s hs).1, r2⟩
      · intro t ht
        by_cases hc : nextLowest cur its ≠ intMax ∧ nextLowest cur its ≤ t
        · have h3 := r3 t hc.1 hc.2
          generalize (if nextLowest cur its = intMax then [] else
              combineLoop f n (nextLowest cur its) (its.map (advance (nextLowest cur its))) (some (f (heads its)))) = q at *
          by_cases hq : ∃ x ∈ q, x.start ≤ t
          · rw [valueAt_cons_of_later _ _ _ hq]
            have : ∃ v, valueAt q t = some v := by
              obtain ⟨x, hx, hxt⟩ := hq
              unfold valueAt
              cases hg : (q.filter (fun s => decide (s.start ≤ t))).getLast? with
              | none =>
                have := List.getLast?_eq_none_iff.1 hg
                have hmem : x ∈ q.filter (fun s => decide (s.start ≤ t)) := by simp [hx, hxt]
                rw [this] at hmem; cases hmem
              | some y => exact ⟨y.val, rfl⟩
            obtain ⟨v, hv⟩ := this
            rw [hv] at h3 ⊢
            simpa using h3
          · have hq' : ∀ x ∈ q, t < x.start := by
              intro x hx
              by_cases h9 : t < x.start
              · exact h9
              · exact absurd ⟨x, hx, by omega⟩ hq
            rw [valueAt_cons_of_none_later _ _ _ ht hq']
            have : valueAt q t = none := by
              unfold valueAt
              rw [List.filter_eq_nil_iff.2]
              · rfl
              · intro s hs; have := hq' s hs; simp; omega
            rw [this] at h3
            simpa using h3
        · have hc' : nextLowest cur its = intMax ∨ t < nextLowest cur its := by
            by_cases h5 : nextLowest cur its = intMax
            · exact Or.inl h5
            · right
              by_cases h6 : nextLowest cur its ≤ t
              · exact absurd ⟨h5, h6⟩ hc
              · omega
          rw [hconst t ht hc', valueAt_cons_of_none_later _ _ _ ht]
          · rfl
          · intro s hs
            have h7 := r4 s hs
            rcases hc' with h9 | h9
            · rw [if_pos h9] at hs; cases hs
            · omega

theorem wf_iters {profiles : List (List (Step α))} {dur : Int} (hd : dur ≤ intMax) (h : ∀ p ∈ profiles, WellFormed p dur) :
    Iters 0 profiles := by
  constructor
  intro it hit
  obtain ⟨⟨v, rest, e⟩, h2, h3⟩ := h it hit
  refine ⟨⟨0, v⟩, rest, e, Int.le_refl _, ?_, h2⟩
  intro x hx
  rw [e] at h2 h3
  have h4 := (List.pairwise_cons.1 h2).1 x hx
  have h5 := h3 x (by simp [hx])
  simp only at h4
  omega

theorem filter_nonempty {profiles : List (List (Step α))} {dur : Int} (h : ∀ p ∈ profiles, WellFormed p dur) :
    profiles.filter (fun p => !p.isEmpty) = profiles := by
  rw [List.filter_eq_self]
  intro p hp
  obtain ⟨⟨v, rest, e⟩, _, _⟩ := h p hp
  rw [e]; rfl

/-- Pointwise meaning of `combine`. -/
theorem combine_at [DecidableEq α] (gap : α) (f : List α → α) (profiles : List (List (Step α))) (hne : profiles ≠ []) (dur : Int)
    (hd : dur ≤ intMax) (h : ∀ p ∈ profiles, WellFormed p dur) (t : Int) (ht : 0 ≤ t) :
    valueAt (combine gap f profiles) t = some (f (profiles.filterMap (fun p => valueAt p t))) := by
  unfold combine
  rw [if_neg hne]
  simp only [filter_nonempty h]
  rw [if_neg hne]
  have := (combineLoop_spec f ((profiles.map List.length).sum + 1) 0 profiles none (wf_iters hd h) (by omega)).2.2.2 t ht
  simpa using this

theorem combine_wf [DecidableEq α] (gap : α) (f : List α → α) (profiles : List (List (Step α))) (dur : Int) (h0 : 0 < dur)
    (hd : dur ≤ intMax) (h : ∀ p ∈ profiles, WellFormed p dur) : WellFormed (combine gap f profiles) dur := by
  unfold combine
  split
  · exact ⟨⟨gap, [], rfl⟩, by simp, by simp [h0]⟩
  · rename_i hne
    simp only [filter_nonempty h]
    rw [if_neg hne]
    obtain ⟨h1, h2, h3, _⟩ := combineLoop_spec f ((profiles.map List.length).sum + 1) 0 profiles none (wf_iters hd h) (by omega)
    refine ⟨h3 rfl, h2, ?_⟩
    intro s hs
    obtain ⟨h4, h5⟩ := h1 s hs
    refine ⟨h4, ?_⟩
    rcases h5 with h5 | ⟨it, hit, n, hn, h5⟩
    · omega
    · have := (h it hit).inside n hn; omega

theorem wf_valueAt {p : List (Step α)} {dur : Int} (h : WellFormed p dur) (t : Int) (ht : 0 ≤ t) : ∃ v, valueAt p t = some v := by
  obtain ⟨⟨v, rest, e⟩, _, _⟩ := h
  unfold valueAt
  cases hg : (p.filter (fun s => decide (s.start ≤ t))).getLast? with
  | none =>
    have := List.getLast?_eq_none_iff.1 hg
    have hm : (⟨0, v⟩ : Step α) ∈ p.filter (fun s => decide (s.start ≤ t)) := by
      rw [e]; simp [ht]
    rw [this] at hm; cases hm
  | some y => exact ⟨y.val, rfl⟩

end Verif.SC
