import Verif.SmartCharging.V2Theorems

/-!
# Limits for single phases where they are right (C53)
-/

namespace Verif.SC2
open Verif.SC
open Verif.SC16 (RUnit Limit lowestPhases highestPhases IsMin noLimit fltMax fltMax_big noLimit_neg pickPhases)

/-- The limits of a period for the three phases. -/
def Period.limits (x : Period) : PL := ⟨x.limit.getD 0, x.limitL2.getD 0, x.limitL3.getD 0⟩

/-- The period has a limit for each of the three phases, of physical size, and is not for one phase only. -/
structure Period.Three (x : Period) : Prop where
  limit : ∃ l, x.limit = some l ∧ 0 ≤ l ∧ l ≤ 1000000000000
  limitL2 : ∃ l, x.limitL2 = some l ∧ 0 ≤ l ∧ l ≤ 1000000000000
  limitL3 : ∃ l, x.limitL3 = some l ∧ 0 ≤ l ∧ l ≤ 1000000000000
  phases : x.phases ≠ some 1

/-- A limit of one phase in another unit. -/
def onPhase (u unit : RUnit) (voltage x : Rat) : Rat :=
  if u = unit then x
  else match unit with
    | .A => x / voltage
    | .W => x * voltage

/-- All values are limits. -/
def PL.Real (x : PL) : Prop := (0 ≤ x.l1 ∧ x.l1 ≤ 1000000000000) ∧ (0 ≤ x.l2 ∧ x.l2 ≤ 1000000000000) ∧ (0 ≤ x.l3 ∧ x.l3 ≤ 1000000000000)

theorem Period.Three.real {x : Period} (h : x.Three) : x.limits.Real := by
  obtain ⟨⟨a, ha, ha'⟩, ⟨b, hb, hb'⟩, ⟨c, hc, hc'⟩, _⟩ := h
  simp only [Period.limits, ha, hb, hc, PL.Real, Option.getD_some]
  exact ⟨ha', hb', hc'⟩

theorem content_three (p : Profile) {x : Period} (h : x.Three) :
    (content p x).cur = (if p.unit = .A then x.limits else .all noLimit) ∧ (content p x).pow = (if p.unit = .W then x.limits else .all noLimit) ∧
      (content p x).phases = x.phases := by
  obtain ⟨⟨a, ha, _⟩, ⟨b, hb, _⟩, ⟨c, hc, _⟩, _⟩ := h
  unfold content
  cases hu : p.unit <;> simp [entryLimit, Period.limits, ha, hb, hc, gapIP]

/-- What the merged periods are: nothing, or limits for three phases. -/
structure Full (x : IP) : Prop where
  cur : x.cur = .all noLimit ∨ x.cur.Real
  pow : x.pow = .all noLimit ∨ x.pow.Real
  phases : x.phases ≠ some 1

theorem full_toIP {r : Option (Profile × Period)} (h : ∀ x, r = some x → x.2.Three) : Full (toIP r) := by
  rcases r with _ | ⟨p, x⟩
  · exact ⟨Or.inl rfl, Or.inl rfl, by simp [toIP, gapIP]⟩
  · have hx : x.Three := h _ rfl
    obtain ⟨h1, h2, h3⟩ := content_three p hx
    refine ⟨?_, ?_, ?_⟩
    · show (content p x).cur = _ ∨ (content p x).cur.Real
      rw [h1]; split
      · exact Or.inr hx.real
      · exact Or.inl rfl
    · show (content p x).pow = _ ∨ (content p x).pow.Real
      rw [h2]; split
      · exact Or.inr hx.real
      · exact Or.inl rfl
    · show (content p x).phases ≠ _
      rw [h3]; exact hx.phases

theorem Real.ne {x : Rat} (h : 0 ≤ x) : x ≠ noLimit := fun he => noLimit_neg (he ▸ h)

theorem phaseValues_full {cur pow : PL} (hc : cur = .all noLimit ∨ cur.Real) (hp : pow = .all noLimit ∨ pow.Real) {ph : Option Int} (h1 : ph ≠ some 1) :
    phaseValues noLimit ph cur pow = (cur, pow) := by
  unfold phaseValues
  rcases ph with _ | n
  · rfl
  · have hn : n ≠ 1 := fun h => h1 (by rw [h])
    simp only [hn, if_false]
    split
    · rfl
    · have key : ∀ x : PL, (x = .all noLimit ∨ x.Real) → ¬ (x.l1 ≠ noLimit ∧ (x.l2 = noLimit ∨ x.l3 = noLimit)) := by
        rintro x (rfl | ⟨_, h2, h3⟩) ⟨ha, hb⟩
        · exact ha rfl
        · exact hb.elim (Real.ne h2.1) (Real.ne h3.1)
      rw [if_neg (key cur hc), if_neg (key pow hp)]

theorem lowestPhasesOf_full {xs : List IP} (h : ∀ x ∈ xs, x.phases ≠ some 1) : lowestPhasesOf xs ≠ some 1 := by
  unfold lowestPhasesOf
  have key : ∀ (xs : List IP) (acc : Option Int), (∀ x ∈ xs, x.phases ≠ some 1) → acc ≠ some 1 →
      xs.foldl (fun acc x => pickPhases (fun b a => decide (b < a)) acc x.phases) acc ≠ some 1 := by
    intro xs
    induction xs with
    | nil => intro acc _ h; exact h
    | cons x xs ih =>
      intro acc hx ha
      refine ih _ (fun y hy => hx y (List.mem_cons_of_mem _ hy)) ?_
      have h1 := hx x (List.mem_cons_self ..)
      show pickPhases _ acc x.phases ≠ some 1
      unfold pickPhases
      split
      · exact h1
      · split
        · rename_i b hb
          split
          · rw [← hb]; exact h1
          · exact ha
        · exact ha
  exact key xs none h (by simp)

/-- The lowest value so far. -/
abbrev low (a : Rat) (l : List Rat) : Rat := l.foldl (fun a x => if 0 ≤ x ∧ x < a then x else a) a

theorem fold_three (ph : Option Int) (h1 : ph ≠ some 1) : ∀ (xs : List IP) (acc : IP), (∀ x ∈ xs, Full x) →
    (xs.foldl (lowestStep true ph) acc).cur =
      ⟨low acc.cur.l1 (xs.map fun x => x.cur.l1), low acc.cur.l2 (xs.map fun x => x.cur.l2), low acc.cur.l3 (xs.map fun x => x.cur.l3)⟩ ∧
    (xs.foldl (lowestStep true ph) acc).pow =
      ⟨low acc.pow.l1 (xs.map fun x => x.pow.l1), low acc.pow.l2 (xs.map fun x => x.pow.l2), low acc.pow.l3 (xs.map fun x => x.pow.l3)⟩
  | [], _, _ => ⟨rfl, rfl⟩
  | x :: xs, acc, hx => by
    have hf := hx x (List.mem_cons_self ..)
    have hv := phaseValues_full hf.cur hf.pow h1
    obtain ⟨a, b⟩ := fold_three ph h1 xs (lowestStep true ph acc x) (fun y hy => hx y (List.mem_cons_of_mem _ hy))
    have hc : (lowestStep true ph acc x).cur = getMinPL acc.cur x.cur none := by
      simp [lowestStep, allPhaseValues, hv]
    have hp : (lowestStep true ph acc x).pow = getMinPL acc.pow x.pow none := by
      simp [lowestStep, allPhaseValues, hv]
    rw [List.foldl_cons, a, b, hc, hp]
    simp [getMinPL, getMin_none, low]

/-- `m` is the lowest of the values `f` of the records with limits in `u`, and `noLimit` if there is none. -/
def Least (cs : List (Profile × Period)) (u : RUnit) (f : PL → Rat) (m : Rat) : Prop :=
  (m = noLimit ∧ ∀ r ∈ cs, r.1.unit ≠ u) ∨
    ((0 ≤ m ∧ m ≤ 1000000000000) ∧ (∃ r ∈ cs, r.1.unit = u ∧ f r.2.limits = m) ∧ ∀ r ∈ cs, r.1.unit = u → m ≤ f r.2.limits)

theorem least_of (rs : List (Option (Profile × Period))) (h3 : ∀ r ∈ rs, ∀ x, r = some x → x.2.Three) (u : RUnit) (f : PL → Rat)
    (hf : ∀ x : PL, x.Real → 0 ≤ f x ∧ f x ≤ 1000000000000) (g : IP → Rat)
    (hg : ∀ r ∈ rs, g (toIP r) = match r with
      | none => noLimit
      | some x => if x.1.unit = u then f x.2.limits else noLimit) :
    Least (rs.flatMap Option.toList) u f
      (if low fltMax ((rs.map toIP).map g) = fltMax then noLimit else low fltMax ((rs.map toIP).map g)) := by
  have hval : ∀ y ∈ (rs.map toIP).map g, y = noLimit ∨ (0 ≤ y ∧ y < fltMax) := by
    intro y hy
    simp only [List.map_map, List.mem_map, Function.comp] at hy
    obtain ⟨r, hr, rfl⟩ := hy
    rw [hg r hr]
    rcases r with _ | x
    · exact Or.inl rfl
    · dsimp only
      split
      · have := hf _ (h3 _ hr x rfl).real
        exact Or.inr ⟨this.1, by have := fltMax_big; linarith⟩
      · exact Or.inl rfl
  have hmem : ∀ x, x ∈ rs.flatMap Option.toList ↔ some x ∈ rs := by
    intro x
    simp [List.mem_flatMap, Option.mem_toList]
  have hm := SC16.min_cases ((rs.map toIP).map g) hval
  dsimp only at hm
  have hin : ∀ x ∈ rs.flatMap Option.toList, x.1.unit = u → f x.2.limits ∈ (rs.map toIP).map g := by
    intro x hx hu
    have hx' := (hmem x).mp hx
    have := hg _ hx'
    simp only [hu, if_true] at this
    rw [← this]
    exact List.mem_map.mpr ⟨_, List.mem_map.mpr ⟨_, hx', rfl⟩, rfl⟩
  rcases hm with ⟨hm, hall⟩ | ⟨_, hmi, h0, _, hle⟩
  · left
    refine ⟨hm, fun x hx hu => ?_⟩
    exact hall _ (hin x hx hu) (hf _ (h3 _ ((hmem x).mp hx) x rfl).real).1
  · right
    obtain ⟨y, hy, hyv⟩ := List.mem_map.mp hmi
    obtain ⟨r, hr, rfl⟩ := List.mem_map.mp hy
    have hgr := hg r hr
    rcases r with _ | x
    · rw [← hyv, hgr] at h0
      exact absurd h0 noLimit_neg
    · dsimp only at hgr
      split at hgr
      · next hu =>
        have he : f x.2.limits = _ := hgr.symm.trans hyv
        refine ⟨⟨h0, ?_⟩, ⟨x, (hmem x).mpr hr, hu, he⟩, fun z hz hzu => hle _ (hin z hz hzu) ?_⟩
        · rw [← he]; exact (hf _ (h3 _ hr x rfl).real).2
        · exact (hf _ (h3 _ ((hmem z).mp hz) z rfl).real).1
      · rw [← hyv, hgr] at h0
        exact absurd h0 noLimit_neg

theorem unit_cases (u : RUnit) : u = .A ∨ u = .W := by cases u <;> simp

/-- The merged period of deciding records with limits for three phases. -/
theorem lowest_three (rs : List (Option (Profile × Period))) (h3 : ∀ r ∈ rs, ∀ x, r = some x → x.2.Three) (hne : rs.flatMap Option.toList ≠ []) :
    let y := lowestComb true (rs.map toIP)
    let cs := rs.flatMap Option.toList
    (Least cs .A PL.l1 y.cur.l1 ∧ Least cs .A PL.l2 y.cur.l2 ∧ Least cs .A PL.l3 y.cur.l3) ∧
    (Least cs .W PL.l1 y.pow.l1 ∧ Least cs .W PL.l2 y.pow.l2 ∧ Least cs .W PL.l3 y.pow.l3) := by
  have hfull : ∀ x ∈ rs.map toIP, Full x := by
    intro x hx
    obtain ⟨r, hr, rfl⟩ := List.mem_map.mp hx
    exact full_toIP (h3 r hr)
  have hthree : (true && (rs.map toIP).any threePhase) = true := by
    obtain ⟨x, hx⟩ := List.exists_mem_of_ne_nil _ hne
    obtain ⟨r, hr, hxr⟩ := List.mem_flatMap.mp hx
    have hrx : r = some x := by simpa using hxr
    rw [Bool.true_and, List.any_eq_true]
    refine ⟨toIP r, List.mem_map.mpr ⟨r, hr, rfl⟩, ?_⟩
    obtain ⟨p, per⟩ := x
    have hT := h3 r hr _ hrx
    subst hrx
    obtain ⟨e1, e2, _⟩ := content_three p hT
    have hn := Real.ne hT.real.2.1.1
    show threePhase (content p per) = true
    unfold threePhase
    rcases unit_cases p.unit with hu | hu
    · rw [e1, if_pos hu]; simp [hn]
    · rw [e2, if_pos hu]; simp [hn]
  have hph : lowestPhasesOf (rs.map toIP) ≠ some 1 := lowestPhasesOf_full (fun x hx => (hfull x hx).phases)
  have hF := fold_three _ hph (rs.map toIP) (start0 (lowestPhasesOf (rs.map toIP))) hfull
  intro y cs
  have hcur : y.cur = replaceMax ((rs.map toIP).foldl (lowestStep true (lowestPhasesOf (rs.map toIP))) (start0 (lowestPhasesOf (rs.map toIP)))).cur fltMax noLimit := by
    show (lowestComb true (rs.map toIP)).cur = _
    unfold lowestComb
    dsimp only
    rw [hthree]; rfl
  have hpow : y.pow = replaceMax ((rs.map toIP).foldl (lowestStep true (lowestPhasesOf (rs.map toIP))) (start0 (lowestPhasesOf (rs.map toIP)))).pow fltMax noLimit := by
    show (lowestComb true (rs.map toIP)).pow = _
    unfold lowestComb
    dsimp only
    rw [hthree]; rfl
  rw [hcur, hpow, hF.1, hF.2]
  have sel : ∀ (f : PL → Rat), f (.all noLimit) = noLimit → ∀ r ∈ rs,
      f (toIP r).cur = (match r with | none => noLimit | some x => if x.1.unit = .A then f x.2.limits else noLimit) ∧
      f (toIP r).pow = (match r with | none => noLimit | some x => if x.1.unit = .W then f x.2.limits else noLimit) := by
    intro f hf r hr
    rcases r with _ | ⟨p, per⟩
    · exact ⟨hf, hf⟩
    · obtain ⟨e1, e2, _⟩ := content_three p (h3 _ hr _ rfl)
      constructor
      · show f (content p per).cur = _
        rw [e1]; dsimp only; split
        · rfl
        · exact hf
      · show f (content p per).pow = _
        rw [e2]; dsimp only; split
        · rfl
        · exact hf
  exact ⟨⟨least_of rs h3 .A PL.l1 (fun x h => h.1) (fun x => x.cur.l1) (fun r hr => (sel PL.l1 rfl r hr).1),
    least_of rs h3 .A PL.l2 (fun x h => h.2.1) (fun x => x.cur.l2) (fun r hr => (sel PL.l2 rfl r hr).1),
    least_of rs h3 .A PL.l3 (fun x h => h.2.2) (fun x => x.cur.l3) (fun r hr => (sel PL.l3 rfl r hr).1)⟩,
    least_of rs h3 .W PL.l1 (fun x h => h.1) (fun x => x.pow.l1) (fun r hr => (sel PL.l1 rfl r hr).2),
    least_of rs h3 .W PL.l2 (fun x h => h.2.1) (fun x => x.pow.l2) (fun r hr => (sel PL.l2 rfl r hr).2),
    least_of rs h3 .W PL.l3 (fun x h => h.2.2) (fun x => x.pow.l3) (fun r hr => (sel PL.l3 rfl r hr).2)⟩

/-- The other unit. -/
def otherUnit : RUnit → RUnit
  | .A => .W
  | .W => .A

/-- One phase of the conversion: the value in the requested unit and the one in the other unit together are the lowest of all. -/
theorem least_both {cs : List (Profile × Period)} (hne : cs ≠ []) {unit : RUnit} {voltage : Rat} (hv : 1 ≤ voltage ∧ voltage ≤ 1000000) {f : PL → Rat} {d o : Rat}
    (hd : Least cs unit f d) (ho : Least cs (otherUnit unit) f o) (init : Option Rat) (hi : init = none ∨ init = some fltMax) :
    ∃ m, transform o noLimit voltage (store d noLimit init) true (decide (unit = .A)) = some m ∧
      IsMin m (cs.map fun r => onPhase r.1.unit unit voltage (f r.2.limits)) := by
  have hpos : (0 : Rat) < voltage := by linarith [hv.1]
  have hconv : ∀ x : Rat, (if decide (unit = .A) = true then x / voltage else x * voltage) = onPhase (otherUnit unit) unit voltage x := by
    intro x
    cases unit <;> simp [onPhase, otherUnit]
  have hmono : ∀ x y : Rat, x ≤ y → onPhase (otherUnit unit) unit voltage x ≤ onPhase (otherUnit unit) unit voltage y := by
    intro x y hxy
    cases unit
    · simp only [onPhase, otherUnit, reduceCtorEq, if_false]
      exact div_le_div_of_nonneg_right hxy hpos.le
    · simp only [onPhase, otherUnit, reduceCtorEq, if_false]
      exact mul_le_mul_of_nonneg_right hxy hpos.le
  have hbig : ∀ x : Rat, 0 ≤ x → x ≤ 1000000000000 → onPhase (otherUnit unit) unit voltage x ≤ fltMax := by
    intro x h0 h1
    have hb := fltMax_big
    cases unit
    · simp only [onPhase, otherUnit, reduceCtorEq, if_false]
      have : x / voltage ≤ x := div_le_self h0 hv.1
      linarith
    · simp only [onPhase, otherUnit, reduceCtorEq, if_false]
      have : x * voltage ≤ 1000000000000 * 1000000 := mul_le_mul h1 hv.2 hpos.le (by norm_num)
      linarith
  have hsame : ∀ x, onPhase unit unit voltage x = x := fun x => by simp [onPhase]
  have hun : ∀ u : RUnit, u = unit ∨ u = otherUnit unit := by
    intro u; cases u <;> cases unit <;> simp [otherUnit]
  unfold transform store
  simp only [hconv, if_true]
  rcases hd with ⟨hd, hdn⟩ | ⟨hdr, ⟨rd, hrd, hrdu, hrdv⟩, hdl⟩
  · rcases ho with ⟨ho, hon⟩ | ⟨hor, ⟨ro, hro, hrou, hrov⟩, hol⟩
    · obtain ⟨r, hr⟩ := List.exists_mem_of_ne_nil _ hne
      rcases hun r.1.unit with h | h
      · exact absurd h (hdn r hr)
      · exact absurd h (hon r hr)
    · rw [if_pos (Real.ne hor.1), if_neg (by rw [hd]; simp)]
      have hval : IsMin (onPhase (otherUnit unit) unit voltage o) (cs.map fun r => onPhase r.1.unit unit voltage (f r.2.limits)) := by
        refine ⟨List.mem_map.mpr ⟨ro, hro, by rw [hrou, hrov]⟩, ?_⟩
        intro y hy
        obtain ⟨r, hr, rfl⟩ := List.mem_map.mp hy
        rcases hun r.1.unit with h | h
        · exact absurd h (hdn r hr)
        · rw [h]; exact hmono _ _ (hol r hr h)
      rcases hi with hi | hi <;> rw [hi]
      · exact ⟨_, rfl, hval⟩
      · refine ⟨_, rfl, ?_⟩
        rw [min_eq_right (hbig o hor.1 hor.2)]
        exact hval
  · have hdne : d ≠ noLimit := Real.ne hdr.1
    rw [if_pos hdne]
    rcases ho with ⟨ho, hon⟩ | ⟨hor, ⟨ro, hro, hrou, hrov⟩, hol⟩
    · rw [if_neg (by rw [ho]; simp)]
      refine ⟨d, rfl, List.mem_map.mpr ⟨rd, hrd, by rw [hrdu, hsame, hrdv]⟩, ?_⟩
      intro y hy
      obtain ⟨r, hr, rfl⟩ := List.mem_map.mp hy
      rcases hun r.1.unit with h | h
      · rw [h, hsame]; exact hdl r hr h
      · exact absurd h (hon r hr)
    · rw [if_pos (Real.ne hor.1)]
      refine ⟨_, rfl, ?_, ?_⟩
      · rcases min_choice d (onPhase (otherUnit unit) unit voltage o) with h | h <;> rw [h]
        · exact List.mem_map.mpr ⟨rd, hrd, by rw [hrdu, hsame, hrdv]⟩
        · exact List.mem_map.mpr ⟨ro, hro, by rw [hrou, hrov]⟩
      · intro y hy
        obtain ⟨r, hr, rfl⟩ := List.mem_map.mp hy
        rcases hun r.1.unit with h | h
        · rw [h, hsame]; exact le_trans (min_le_left _ _) (hdl r hr h)
        · rw [h]; exact le_trans (min_le_right _ _) (hmono _ _ (hol r hr h))

theorem Least.none_all {cs : List (Profile × Period)} {u : RUnit} {f g : PL → Rat} {a b : Rat} (ha : Least cs u f a) (hb : Least cs u g b) :
    a = noLimit ↔ b = noLimit := by
  constructor
  · intro h
    rcases hb with hb | ⟨_, ⟨r, hr, hu, _⟩, _⟩
    · exact hb.1
    · rcases ha with ha | ha
      · exact absurd hu (ha.2 r hr)
      · exact absurd h (Real.ne ha.1.1)
  · intro h
    rcases ha with ha | ⟨_, ⟨r, hr, hu, _⟩, _⟩
    · exact ha.1
    · rcases hb with hb | hb
      · exact absurd hu (hb.2 r hr)
      · exact absurd h (Real.ne hb.1.1)

theorem both_three {cs : List (Profile × Period)} (hne : cs ≠ []) {unit : RUnit} {voltage : Rat} (hv : 1 ≤ voltage ∧ voltage ≤ 1000000) {d o : PL}
    (hd : Least cs unit PL.l1 d.l1 ∧ Least cs unit PL.l2 d.l2 ∧ Least cs unit PL.l3 d.l3)
    (ho : Least cs (otherUnit unit) PL.l1 o.l1 ∧ Least cs (otherUnit unit) PL.l2 o.l2 ∧ Least cs (otherUnit unit) PL.l3 o.l3) (n : Int) :
    ∃ a b c, both d o noLimit voltage n (some fltMax) true (decide (unit = .A)) = (some a, some b, some c) ∧
      IsMin a (cs.map fun r => onPhase r.1.unit unit voltage r.2.limits.l1) ∧
      IsMin b (cs.map fun r => onPhase r.1.unit unit voltage r.2.limits.l2) ∧
      IsMin c (cs.map fun r => onPhase r.1.unit unit voltage r.2.limits.l3) := by
  obtain ⟨a, ea, ha⟩ := least_both hne hv hd.1 ho.1 (some fltMax) (Or.inr rfl)
  obtain ⟨b, eb, hb⟩ := least_both hne hv hd.2.1 ho.2.1 none (Or.inl rfl)
  obtain ⟨c, ec, hc⟩ := least_both hne hv hd.2.2 ho.2.2 none (Or.inl rfl)
  refine ⟨a, b, c, ?_, ha, hb, hc⟩
  unfold both
  dsimp only
  by_cases h : o.l2 = noLimit
  · have h1 := (ho.1.none_all ho.2.1).mpr h
    have h3 := (ho.2.1.none_all ho.2.2).mp h
    have irr : ∀ (x : Rat), x = noLimit → ∀ t init, transform x noLimit t init true (decide (unit = .A)) = transform x noLimit voltage init true (decide (unit = .A)) := by
      intro x hx t init
      simp [transform, hx]
    rw [irr _ h1, irr _ h, irr _ h3, ea, eb, ec]
  · have h3 : o.l3 ≠ noLimit := fun h3 => h ((ho.2.1.none_all ho.2.2).mpr h3)
    rw [if_neg (by simp [h, h3]), ea, eb, ec]

/-- At the beginning of the window the composite schedule says what the merged periods say. -/
theorem convertAll_first (unit : RUnit) (dl : Rat) (dp : Int) (v : Rat) (l : List (Step IP)) (dur : Int) (hw : WellFormed l dur) (x : IP)
    (hx : valueAt l 0 = some x) : valueAt (convertAll unit dl dp v l) 0 = some (convert unit dl dp v x) := by
  obtain ⟨y, rest, rfl⟩ := hw.first
  have hlater : ∀ s ∈ rest, 0 < s.start := fun s hs => (List.pairwise_cons.mp hw.increasing).1 s hs
  rw [valueAt_cons_of_none_later _ _ _ (le_refl _) hlater] at hx
  cases hx
  unfold convertAll
  rw [List.map_cons]
  show valueAt (_ :: dedup _ _) 0 = _
  rw [valueAt_cons_of_none_later _ _ _ (le_refl _)]
  intro s hs
  obtain ⟨z, hz, rfl⟩ := List.mem_map.mp (dedup_mem _ _ s hs)
  exact hlater z hz

theorem txComb_three (a b : Option (Profile × Period)) (ha : ∀ x, a = some x → x.2.Three) (hb : ∀ x, b = some x → x.2.Three) :
    txComb [toIP a, toIP b] = toIP ((a.toList ++ b.toList).find? specifies) := by
  have hspec : ∀ (x : Profile × Period), x.2.Three → specifies x = true := by
    intro x hx
    obtain ⟨l, hl, _⟩ := hx.limit
    simp [specifies, limitValue, hl]
  have hdiff : ∀ (p : Profile) (x : Period), x.Three → (content p x).cur ≠ gapIP.cur ∨ (content p x).pow ≠ gapIP.pow := by
    intro p x hx
    obtain ⟨e1, e2, _⟩ := content_three p hx
    have hn := Real.ne hx.real.1.1
    rcases unit_cases p.unit with hu | hu
    · left; rw [e1, if_pos hu]; intro h; exact hn (by rw [h]; rfl)
    · right; rw [e2, if_pos hu]; intro h; exact hn (by rw [h]; rfl)
  have one : ∀ (r : Option (Profile × Period)) (rest : List IP), (∀ x, r = some x → x.2.Three) →
      txComb (toIP r :: rest) = if r.isSome then toIP r else txComb rest := by
    intro r rest hr
    rcases r with _ | ⟨p, x⟩
    · simp [txComb, toIP]
    · rw [txComb, if_pos]
      · rfl
      · rcases hdiff p x (hr _ rfl) with h | h
        · exact Or.inl h
        · exact Or.inr (Or.inl h)
  rw [one a _ ha, one b _ hb]
  rcases a with _ | x
  · rcases b with _ | y
    · rfl
    · simp [hspec y (hb y rfl)]
  · simp [hspec x (ha x rfl)]

/-- **C53, proved part.** In OCPP 2.1, if the profiles have limits for each of the three phases, then at the beginning of the window the composite schedule of an EVSE has for
each phase the lowest of the limits of that phase of the profiles in force, converted with the voltage of a phase.

Missing: later instants, where changes of the limits of the second and third phase alone are lost (`C53_phase_limits_violated`), and the station (`C53_station_violated`). -/
theorem C53_first_partial (sort : Sorter) (hsort : SortsByStack sort) (cfg : Config) (hv : cfg.v21 = true) (hc : 1 ≤ cfg.voltage ∧ cfg.voltage ≤ 1000000) (s : Station)
    (evse : Nat) (he : evse ≠ 0) (e : Evse) (hg : s.evses[evse-1]? = some e)
    (hp : ∀ p ∈ e.profiles ++ s.profiles, p.Ordered ∧ ∀ x ∈ p.periods, x.Three) (unit : RUnit) (now stop : Int) (simulate : Bool)
    (h1 : now < stop) (hw : stop - now ≤ intMax) :
    ∃ ext tx max o, Decides (Counts s e .external) e.session now now ext ∧ TxDecides s e simulate now now tx ∧ Decides (StationMax s) e.session now now max ∧
      valueAt (composite sort cfg s evse unit now stop simulate) 0 = some o ∧
      (ext.toList ++ tx.toList ++ max.toList ≠ [] →
        ∃ b c, o.limitL2 = some b ∧ o.limitL3 = some c ∧
          IsMin o.limit ((ext.toList ++ tx.toList ++ max.toList).map fun r => onPhase r.1.unit unit cfg.voltage r.2.limits.l1) ∧
          IsMin b ((ext.toList ++ tx.toList ++ max.toList).map fun r => onPhase r.1.unit unit cfg.voltage r.2.limits.l2) ∧
          IsMin c ((ext.toList ++ tx.toList ++ max.toList).map fun r => onPhase r.1.unit unit cfg.voltage r.2.limits.l3)) := by
  have hst : ∀ p ∈ s.profiles, p.Ordered ∧ ∀ x ∈ p.periods, x.Three := fun p h => hp p (List.mem_append_right _ h)
  have three : ∀ {S : Profile → Prop} {r}, (∀ p, S p → p ∈ e.profiles ++ s.profiles) → Decides S e.session now now r → ∀ x, r = some x → x.2.Three := by
    rintro S r hS hd ⟨p, per⟩ rfl
    exact (hp p (hS p hd.1)).2 per (inForce_mem hd.2.1)
  obtain ⟨ext, dext, vext⟩ := generate_decides sort hsort now stop e.session (e.profiles ++ s.profiles) .external
    (fun p h _ => (hp p h).1) hw now (le_refl _) h1
  obtain ⟨mx, dmx, vmx⟩ := generate_decides sort hsort now stop e.session s.profiles .stationMax (fun p h _ => (hst p h).1) hw now (le_refl _) h1
  have text := three (fun p h => h.1) dext
  have tmx := three (fun p h => List.mem_append_right _ h.1) dmx
  have hact : (e.session.isSome || simulate) = true ↔ (e.session ≠ none ∨ simulate = true) := by
    cases e.session <;> simp
  have merged : ∃ (tx : Option (Profile × Period)) (rs : List (Option (Profile × Period))), TxDecides s e simulate now now tx ∧ (∀ r ∈ rs, ∀ x, r = some x → x.2.Three) ∧
      rs.flatMap Option.toList = ext.toList ++ tx.toList ++ mx.toList ∧
      valueAt (evseLimits sort cfg s e now stop simulate) (now - now) = some (lowestComb cfg.v21 (rs.map toIP)) := by
    have hat := combine_at gapIP (lowestComb cfg.v21) (evseIntermediates sort e.profiles s.profiles now stop e.session simulate ++
      [generate sort (allEntries now stop e.session s.profiles .stationMax) now stop gapIP])
      (by simp) (stop - now) hw (by
        intro p hp
        rcases List.mem_append.1 hp with hp | hp
        · exact evseIntermediates_wf sort _ _ _ _ h1 hw p hp
        · rw [List.mem_singleton.1 hp]; exact generate_wf _ _ _ _ _ h1 hw) (now - now) (by omega)
    rw [List.filterMap_append] at hat
    simp only [List.filterMap_cons, List.filterMap_nil, vmx] at hat
    unfold evseIntermediates at hat
    simp only at hat
    unfold TxDecides
    by_cases ha : e.session ≠ none ∨ simulate = true
    · rw [if_pos (hact.2 ha)] at hat
      simp only [if_pos ha]
      obtain ⟨a, da, va⟩ := generate_decides sort hsort now stop e.session (e.profiles ++ s.profiles) .tx (fun p h _ => (hp p h).1) hw now (le_refl _) h1
      obtain ⟨b, db, vb⟩ := generate_decides sort hsort now stop e.session (e.profiles ++ s.profiles) .txDefault (fun p h _ => (hp p h).1) hw now (le_refl _) h1
      have ta := three (fun p h => h.1) da
      have tb := three (fun p h => h.1) db
      have w1 := generate_wf sort (allEntries now stop e.session (e.profiles ++ s.profiles) .tx) now stop gapIP h1 hw
      have w2 := generate_wf sort (allEntries now stop e.session (e.profiles ++ s.profiles) .txDefault) now stop gapIP h1 hw
      have hv' := combine_at gapIP txComb
        [generate sort (allEntries now stop e.session (e.profiles ++ s.profiles) .tx) now stop gapIP,
         generate sort (allEntries now stop e.session (e.profiles ++ s.profiles) .txDefault) now stop gapIP]
        (by simp) (stop - now) hw (by
        intro p hp
        rcases List.mem_cons.1 hp with rfl | hp
        · exact w1
        · rw [List.mem_singleton.1 hp]; exact w2) (now - now) (by omega)
      simp only [List.filterMap_cons, List.filterMap_nil, va, vb, txComb_three a b ta tb] at hv'
      unfold mergeTx at hat
      simp only [List.filterMap_cons, List.filterMap_nil, hv', vext] at hat
      refine ⟨_, [ext, (a.toList ++ b.toList).find? specifies, mx], ⟨a, b, da, db, rfl⟩, ?_, by simp, ?_⟩
      rotate_left
      · unfold evseLimits mergeLowest evseIntermediates mergeTx
        simp only
        rw [if_pos (hact.2 ha)]
        exact hat
      intro r hr x hx
      simp only [List.mem_cons, List.not_mem_nil, or_false] at hr
      rcases hr with rfl | rfl | rfl
      · exact text x hx
      · rcases List.mem_append.mp (List.mem_of_find?_eq_some hx) with h | h
        · exact ta x (by simpa using h)
        · exact tb x (by simpa using h)
      · exact tmx x hx
    · rw [if_neg (fun h => ha (hact.1 h))] at hat
      simp only [if_neg ha]
      simp only [List.filterMap_cons, List.filterMap_nil, vext] at hat
      refine ⟨none, [ext, mx], rfl, ?_, by simp, ?_⟩
      rotate_left
      · unfold evseLimits mergeLowest evseIntermediates
        simp only
        rw [if_neg (fun h => ha (hact.1 h))]
        exact hat
      intro r hr x hx
      simp only [List.mem_cons, List.not_mem_nil, or_false] at hr
      rcases hr with rfl | rfl
      · exact text x hx
      · exact tmx x hx
  obtain ⟨tx, rs, dtx, h3, hrs, hat⟩ := merged
  have wf := evseLimits_wf sort cfg s e simulate h1 hw
  rw [Int.sub_self] at hat
  have hfirst := convertAll_first unit (configuredDefault cfg unit) cfg.phases cfg.voltage _ _ wf _ hat
  refine ⟨ext, tx, mx, convert unit (configuredDefault cfg unit) cfg.phases cfg.voltage (lowestComb cfg.v21 (rs.map toIP)), dext, dtx, dmx, ?_, ?_⟩
  · rw [composite_evse sort cfg s evse he e hg]; exact hfirst
  · rw [← hrs, hv]
    intro hne
    obtain ⟨hA, hW⟩ := lowest_three rs h3 hne
    generalize lowestComb true (rs.map toIP) = y at hA hW
    generalize rs.flatMap Option.toList = cs at hne hA hW
    have hinit : ¬ (y.cur.l1 = noLimit ∧ y.pow.l1 = noLimit) := by
      rintro ⟨ha, hb⟩
      obtain ⟨r, hr⟩ := List.exists_mem_of_ne_nil _ hne
      rcases unit_cases r.1.unit with hu | hu
      · rcases hA.1 with h | h
        · exact h.2 r hr hu
        · exact Real.ne h.1.1 ha
      · rcases hW.1 with h | h
        · exact h.2 r hr hu
        · exact Real.ne h.1.1 hb
    cases unit with
    | A =>
      obtain ⟨a, b, c, hb, ma, mb, mc⟩ := both_three (unit := .A) hne hc hA hW (y.phases.getD cfg.phases)
      have hb' : both y.cur y.pow noLimit cfg.voltage (y.phases.getD cfg.phases) (some fltMax) true true = (some a, some b, some c) := hb
      refine ⟨b, c, ?_, ?_, ?_, mb, mc⟩
      · simp [convert, if_neg hinit, hb']
      · simp [convert, if_neg hinit, hb']
      · have : (convert .A (configuredDefault cfg .A) cfg.phases cfg.voltage y).limit = a := by simp [convert, if_neg hinit, hb']
        rw [this]; exact ma
    | W =>
      obtain ⟨a, b, c, hb, ma, mb, mc⟩ := both_three (unit := .W) hne hc hW hA (y.phases.getD cfg.phases)
      have hb' : both y.pow y.cur noLimit cfg.voltage (y.phases.getD cfg.phases) (some fltMax) true false = (some a, some b, some c) := hb
      refine ⟨b, c, ?_, ?_, ?_, mb, mc⟩
      · simp [convert, if_neg hinit, hb']
      · simp [convert, if_neg hinit, hb']
      · have : (convert .W (configuredDefault cfg .W) cfg.phases cfg.voltage y).limit = a := by simp [convert, if_neg hinit, hb']
        rw [this]; exact ma

/-- A constraint of 2300, 4600 and 6900 W for the three phases. -/
def exWatts : Profile :=
  { id := 8, stack := 1, purpose := .external, kind := .absolute, unit := .W, startSchedule := some 0,
    periods := [{ start := 0, limit := some 2300, limitL2 := some 4600, limitL3 := some 6900, phases := some 3 }] }

/-- Together with 32 A on each phase: 10, 20 and 30 A. -/
example : (∀ x ∈ exWatts.periods ++ exPhases.periods, x.Three) ∧
    (valueAt (composite sortByStack { v21 := true } ⟨[], [⟨some 0, [exPhases, exWatts]⟩]⟩ 1 .A 0 1000 false) 0).map (fun o => (o.limit, o.limitL2, o.limitL3)) =
      some (10, some 20, some 30) := by
  constructor
  · intro x hx
    simp only [exWatts, exPhases, List.mem_append, List.mem_cons, List.not_mem_nil, or_false] at hx
    rcases hx with rfl | rfl | rfl <;> exact ⟨⟨_, rfl, by norm_num, by norm_num⟩, ⟨_, rfl, by norm_num, by norm_num⟩, ⟨_, rfl, by norm_num, by norm_num⟩, by decide⟩
  · decide +kernel

end Verif.SC2
