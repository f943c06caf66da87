import Verif.SmartCharging.V2Composite

/-! Discharge limits, setpoints and the sum over EVSEs (2.x). -/

set_option linter.unusedSimpArgs false

namespace Verif.SC2
open Verif.SC
open Verif.SC16 (RUnit fltMax noLimit Limit lowestPhases highestPhases IsMin pickPhases noLimit_neg fltMax_big)

/-! ## Discharge limits -/

/-- A value of an intermediate period that is a discharge limit or none. -/
def DisOk (d : Rat) : Prop := d = noDischarge ∨ (-1000000000000 ≤ d ∧ d ≤ 0)

theorem noDischarge_lt : noDischarge < -3000000000000000000000000 := by
  unfold noDischarge; linarith [fltMax_big]

theorem DisOk.ne {d : Rat} (h : DisOk d) : d ≠ noDischarge ↔ -1000000000000 ≤ d := by
  have := noDischarge_lt
  rcases h with h | h
  · rw [h]; constructor
    · intro h; exact absurd rfl h
    · intro h; linarith
  · constructor
    · intro _; exact h.1
    · intro _ he; rw [he] at h; linarith [h.1]

theorem disFold_spec (l : List Rat) : ∀ acc : Rat, noDischarge ≤ acc → acc < 0 → (∀ d ∈ l, DisOk d) →
    let r := l.foldl (fun a b => getMax a b none) acc
    acc ≤ r ∧ r < 0 ∧ (r = acc ∨ (r ∈ l ∧ r ≠ noDischarge)) ∧ ∀ d ∈ l, d < 0 → d ≤ r := by
  induction l with
  | nil => intro acc _ h0 _; simp [h0]
  | cons d l ih =>
    intro acc hacc h0 hl
    have hd := hl d (by simp)
    have hl' : ∀ x ∈ l, DisOk x := fun x hx => hl x (List.mem_cons_of_mem _ hx)
    simp only [List.foldl_cons]
    by_cases hneg : d < 0
    · have e : getMax acc d none = max acc d := by simp [getMax, hneg]
      obtain ⟨h1, h2, h3, h4⟩ := ih (max acc d) (le_trans hacc (le_max_left _ _)) (max_lt h0 hneg) hl'
      rw [e]
      refine ⟨le_trans (le_max_left _ _) h1, h2, ?_, ?_⟩
      · rcases h3 with h3 | ⟨a, b⟩
        · rcases le_total d acc with hle | hle
          · left; rw [h3, max_eq_left hle]
          · by_cases he : d = acc
            · left; rw [h3, he, max_self]
            · right
              rw [h3, max_eq_right hle]
              refine ⟨by simp, ?_⟩
              intro hc
              rw [hc] at hle he
              exact he (le_antisymm hacc hle)
        · right; exact ⟨List.mem_cons_of_mem _ a, b⟩
      · intro x hx hx0
        rcases List.mem_cons.1 hx with rfl | hx
        · exact le_trans (le_max_right _ _) h1
        · exact h4 x hx hx0
    · have e : getMax acc d none = acc := by simp [getMax, hneg]
      obtain ⟨h1, h2, h3, h4⟩ := ih acc hacc h0 hl'
      rw [e]
      refine ⟨h1, h2, ?_, ?_⟩
      · rcases h3 with h3 | ⟨a, b⟩
        · exact Or.inl h3
        · right; exact ⟨List.mem_cons_of_mem _ a, b⟩
      · intro x hx hx0
        rcases List.mem_cons.1 hx with rfl | hx
        · exact absurd hx0 hneg
        · exact h4 x hx hx0

theorem lowest_fold_dis (ph : Option Int) (xs : List IP) : ∀ acc : IP,
    (xs.foldl (lowestStep false ph) acc).disCur.l1 = (xs.map fun x => x.disCur.l1).foldl (fun a b => getMax a b none) acc.disCur.l1 ∧
    (xs.foldl (lowestStep false ph) acc).disPow.l1 = (xs.map fun x => x.disPow.l1).foldl (fun a b => getMax a b none) acc.disPow.l1 ∧
    (xs.foldl (lowestStep false ph) acc).disCur.l2 = (xs.map fun x => x.disCur.l2).foldl (fun a b => getMax a b none) acc.disCur.l2 ∧
    (xs.foldl (lowestStep false ph) acc).disPow.l2 = (xs.map fun x => x.disPow.l2).foldl (fun a b => getMax a b none) acc.disPow.l2 := by
  induction xs with
  | nil => intro acc; exact ⟨rfl, rfl, rfl, rfl⟩
  | cons x xs ih =>
    intro acc
    obtain ⟨h1, h2, h3, h4⟩ := ih (lowestStep false ph acc x)
    simp only [List.foldl_cons, List.map_cons]
    rw [h1, h2, h3, h4]
    simp [lowestStep, getMaxPL]

theorem disFold_none (l : List Rat) (h : ∀ d ∈ l, d = noDischarge) : l.foldl (fun a b => getMax a b none) noDischarge = noDischarge := by
  induction l with
  | nil => rfl
  | cons d l ih =>
    rw [List.foldl_cons, h d (by simp)]
    have : getMax noDischarge noDischarge none = noDischarge := by simp [getMax]
    rw [this]
    exact ih (fun x hx => h x (List.mem_cons_of_mem _ hx))

/-- What the merged discharge limits are. -/
theorem dis_merge (l : List Rat) (hl : ∀ d ∈ l, DisOk d) :
    let r := l.foldl (fun a b => getMax a b none) noDischarge
    (r = noDischarge ∧ ∀ d ∈ l, d ≠ noDischarge → ¬ d < 0) ∨
    (r ≠ noDischarge ∧ r ∈ l ∧ r < 0 ∧ ∀ d ∈ l, d < 0 → d ≤ r) := by
  have h0 : noDischarge < 0 := by linarith [noDischarge_lt]
  obtain ⟨h1, h2, h3, h4⟩ := disFold_spec l noDischarge (le_refl _) h0 hl
  by_cases hr : l.foldl (fun a b => getMax a b none) noDischarge = noDischarge
  · left
    refine ⟨hr, ?_⟩
    intro d hd hne hneg
    have := h4 d hd hneg
    rw [hr] at this
    have h5 := ((hl d hd).ne).1 hne
    linarith [noDischarge_lt]
  · right
    rcases h3 with h3 | ⟨a, b⟩
    · exact absurd h3 hr
    · exact ⟨hr, a, h2, h4⟩

theorem toIP_dis {r : Option (Profile × Period)} (h : Good r) : DisOk (toIP r).disCur.l1 ∧ DisOk (toIP r).disPow.l1 ∧
    (∀ d, (toIP r).disCur.l1 = d → d ≠ noDischarge → ∃ x, r = some x ∧ x.1.unit = .A ∧ x.2.discharge = some d) ∧
    (∀ d, (toIP r).disPow.l1 = d → d ≠ noDischarge → ∃ x, r = some x ∧ x.1.unit = .W ∧ x.2.discharge = some d) ∧
    (∀ x d, r = some x → x.2.discharge = some d → (x.1.unit = .A → (toIP r).disCur.l1 = d) ∧ (x.1.unit = .W → (toIP r).disPow.l1 = d)) := by
  rcases r with _ | ⟨p, per⟩
  · refine ⟨Or.inl rfl, Or.inl rfl, ?_, ?_, by simp⟩
    · intro d h1 h2; exact absurd h1.symm h2
    · intro d h1 h2; exact absurd h1.symm h2
  · have hd := h.discharge p per
    cases hdis : per.discharge with
    | none =>
      simp only [toIP]; unfold content entryDischarge
      cases hu : p.unit
      · refine ⟨?_, Or.inl rfl, ?_, ?_, ?_⟩
        · simp [hdis, DisOk]
        · intro d h1 h2; simp [hdis] at h1; exact absurd h1.symm h2
        · intro d h1 h2; exact absurd h1.symm h2
        · rintro x d hx hxd; injection hx with hx; subst hx; rw [hdis] at hxd; cases hxd
      · refine ⟨Or.inl rfl, ?_, ?_, ?_, ?_⟩
        · simp [hdis, DisOk]
        · intro d h1 h2; exact absurd h1.symm h2
        · intro d h1 h2; simp [hdis] at h1; exact absurd h1.symm h2
        · rintro x d hx hxd; injection hx with hx; subst hx; rw [hdis] at hxd; cases hxd
    | some d0 =>
      have hb := hd d0 rfl hdis
      simp only [toIP]; unfold content entryDischarge
      cases hu : p.unit
      · refine ⟨?_, Or.inl rfl, ?_, ?_, ?_⟩
        · simp only [hdis, Option.getD_some]; exact Or.inr hb
        · intro d h1 h2; simp only [hdis, Option.getD_some] at h1; exact ⟨(p, per), rfl, hu, by rw [hdis, h1]⟩
        · intro d h1 h2; exact absurd h1.symm h2
        · rintro x d hx hxd; injection hx with hx; subst hx
          simp only [hdis, Option.some.injEq] at hxd
          simp [hdis, hxd, hu]
      · refine ⟨Or.inl rfl, ?_, ?_, ?_, ?_⟩
        · simp only [hdis, Option.getD_some]; exact Or.inr hb
        · intro d h1 h2; exact absurd h1.symm h2
        · intro d h1 h2; simp only [hdis, Option.getD_some] at h1; exact ⟨(p, per), rfl, hu, by rw [hdis, h1]⟩
        · rintro x d hx hxd; injection hx with hx; subst hx
          simp only [hdis, Option.some.injEq] at hxd
          simp [hdis, hxd, hu]

theorem mem_dischargesIn {unit : RUnit} {v : Rat} {n : Int} {rs : List (Option (Profile × Period))} {y : Rat} :
    y ∈ dischargesIn unit v n ((rs.flatMap Option.toList).map constraintOf) ↔
      ∃ x d, some x ∈ rs ∧ x.2.discharge = some d ∧ d < 0 ∧ inUnit x.1.unit unit v n d = y := by
  unfold dischargesIn dischargeLimits
  simp only [List.mem_filterMap, List.mem_map, List.mem_flatMap, Option.mem_toList, exists_exists_and_eq_and,
    Option.map_eq_some_iff, Option.filter_eq_some_iff, decide_eq_true_eq]
  constructor
  · rintro ⟨x, ⟨r, hr, hx⟩, d, ⟨hd, hneg⟩, hy⟩
    have : r = some x := hx
    exact ⟨x, d, this ▸ hr, hd, hneg, hy⟩
  · rintro ⟨x, d, hr, hd, hneg, hy⟩
    exact ⟨x, ⟨some x, hr, rfl⟩, d, ⟨hd, hneg⟩, hy⟩

theorem inUnit_pos_mono {u unit : RUnit} {v : Rat} {n : Int} (hv : 0 < v) (hn : 0 < n) {a b : Rat} (h : a ≤ b) :
    inUnit u unit v n a ≤ inUnit u unit v n b :=
  SC16.inUnit_mono (l := ⟨u, a, none⟩) (l' := ⟨u, b, none⟩) unit v n hv hn rfl h

/-- **Merged and converted discharge limits.** -/
theorem discharge_applies (v21 : Bool) (unit : RUnit) (dl : Rat) (dp : Int) (v : Rat) (rs : List (Option (Profile × Period)))
    (hr : ∀ r ∈ rs, Good r) (hv : 0 < v) (hdp : 0 < dp) :
    let x := lowestComb v21 (rs.map toIP)
    let n := x.phases.getD dp
    let ds := dischargesIn unit v n ((rs.flatMap Option.toList).map constraintOf)
    (ds = [] → (convert unit dl dp v x).discharge = none) ∧
    (ds ≠ [] → ∃ d, (convert unit dl dp v x).discharge = some d ∧ IsMax d ds) := by
  have h3 : (v21 && (rs.map toIP).any threePhase) = false := notThree (Or.inr (by
    intro x hx
    obtain ⟨r, hrm, rfl⟩ := List.mem_map.1 hx
    exact toIP_scalar (hr r hrm)))
  obtain ⟨f1, f2, f3, f4⟩ := lowest_fold_dis (lowestPhasesOf (rs.map toIP)) (rs.map toIP) (start0 (lowestPhasesOf (rs.map toIP)))
  have e := lowestComb_eq v21 (rs.map toIP) h3
  simp only
  generalize hx : lowestComb v21 (rs.map toIP) = x
  have g1 : x.disCur.l1 = (rs.map fun r => (toIP r).disCur.l1).foldl (fun a b => getMax a b none) noDischarge := by
    rw [← hx, e]; simp only [f1, List.map_map]; rfl
  have g2 : x.disPow.l1 = (rs.map fun r => (toIP r).disPow.l1).foldl (fun a b => getMax a b none) noDischarge := by
    rw [← hx, e]; simp only [f2, List.map_map]; rfl
  have g3 : x.disCur.l2 = noDischarge := by
    rw [← hx, e]; simp only [f3, List.map_map]
    apply disFold_none
    intro d hd
    obtain ⟨r, hrm, rfl⟩ := List.mem_map.1 hd
    exact (toIP_scalar (hr r hrm)).disCur.1
  have g4 : x.disPow.l2 = noDischarge := by
    rw [← hx, e]; simp only [f4, List.map_map]
    apply disFold_none
    intro d hd
    obtain ⟨r, hrm, rfl⟩ := List.mem_map.1 hd
    exact (toIP_scalar (hr r hrm)).disPow.1
  have gph : ∀ n, x.phases = some n → 1 ≤ n := by
    intro n hn
    rw [← hx, e] at hn
    have hn' : (start0 (lowestPhasesOf (rs.map toIP))).phases = some n := by
      rw [← (lowest_fold (lowestPhasesOf (rs.map toIP)) (rs.map toIP) (start0 (lowestPhasesOf (rs.map toIP)))).2.2]; exact hn
    rw [show (start0 (lowestPhasesOf (rs.map toIP))).phases = lowestPhasesOf (rs.map toIP) from rfl, lowestPhasesOf_eq] at hn'
    have := SC16.lowestPhases_mem hn'
    simp only [List.mem_map, exists_exists_and_eq_and] at this
    obtain ⟨r, hrm, hre⟩ := this
    rw [phases_toIP] at hre
    rcases r with _ | ⟨p, per⟩
    · cases hre
    · exact ((hr _ hrm).phases p per n rfl hre).1
  have m1 := dis_merge (rs.map fun r => (toIP r).disCur.l1) (by
    intro d hd
    obtain ⟨r, hrm, rfl⟩ := List.mem_map.1 hd
    exact (toIP_dis (hr r hrm)).1)
  have m2 := dis_merge (rs.map fun r => (toIP r).disPow.l1) (by
    intro d hd
    obtain ⟨r, hrm, rfl⟩ := List.mem_map.1 hd
    exact (toIP_dis (hr r hrm)).2.1)
  simp only [← g1] at m1
  simp only [← g2] at m2
  have hn : 0 < x.phases.getD dp := by
    cases hp : x.phases with
    | none => exact hdp
    | some n => have := gph n hp; show 0 < n; omega
  have FA : (x.disCur.l1 = noDischarge ∧ ∀ y d, some y ∈ rs → y.1.unit = .A → y.2.discharge = some d → ¬ d < 0) ∨
      (x.disCur.l1 ≠ noDischarge ∧ (∃ y, some y ∈ rs ∧ y.1.unit = .A ∧ y.2.discharge = some x.disCur.l1) ∧ x.disCur.l1 < 0 ∧
        ∀ y d, some y ∈ rs → y.1.unit = .A → y.2.discharge = some d → d < 0 → d ≤ x.disCur.l1) := by
    rcases m1 with ⟨a, b⟩ | ⟨a, b, c, d⟩
    · left
      refine ⟨a, ?_⟩
      intro y d hy hu hd
      have hg := hr _ hy
      have e1 := ((toIP_dis hg).2.2.2.2 y d rfl hd).1 hu
      apply b d (List.mem_map.2 ⟨some y, hy, e1⟩)
      have := hg.discharge y.1 y.2 d rfl hd
      exact (fltMax_ne this.1 (by linarith [this.2])).2
    · right
      refine ⟨a, ?_, c, ?_⟩
      · obtain ⟨r, hrm, hre⟩ := List.mem_map.1 b
        obtain ⟨y, rfl, hu, hd⟩ := (toIP_dis (hr r hrm)).2.2.1 _ hre a
        exact ⟨y, hrm, hu, hd⟩
      · intro y d' hy hu hd hneg
        have e1 := ((toIP_dis (hr _ hy)).2.2.2.2 y d' rfl hd).1 hu
        exact d d' (List.mem_map.2 ⟨some y, hy, e1⟩) hneg
  have FW : (x.disPow.l1 = noDischarge ∧ ∀ y d, some y ∈ rs → y.1.unit = .W → y.2.discharge = some d → ¬ d < 0) ∨
      (x.disPow.l1 ≠ noDischarge ∧ (∃ y, some y ∈ rs ∧ y.1.unit = .W ∧ y.2.discharge = some x.disPow.l1) ∧ x.disPow.l1 < 0 ∧
        ∀ y d, some y ∈ rs → y.1.unit = .W → y.2.discharge = some d → d < 0 → d ≤ x.disPow.l1) := by
    rcases m2 with ⟨a, b⟩ | ⟨a, b, c, d⟩
    · left
      refine ⟨a, ?_⟩
      intro y d hy hu hd
      have hg := hr _ hy
      have e1 := ((toIP_dis hg).2.2.2.2 y d rfl hd).2 hu
      apply b d (List.mem_map.2 ⟨some y, hy, e1⟩)
      have := hg.discharge y.1 y.2 d rfl hd
      exact (fltMax_ne this.1 (by linarith [this.2])).2
    · right
      refine ⟨a, ?_, c, ?_⟩
      · obtain ⟨r, hrm, hre⟩ := List.mem_map.1 b
        obtain ⟨y, rfl, hu, hd⟩ := (toIP_dis (hr r hrm)).2.2.2.1 _ hre a
        exact ⟨y, hrm, hu, hd⟩
      · intro y d' hy hu hd hneg
        have e1 := ((toIP_dis (hr _ hy)).2.2.2.2 y d' rfl hd).2 hu
        exact d d' (List.mem_map.2 ⟨some y, hy, e1⟩) hneg
  have conv : (convert unit dl dp v x).discharge =
      (if x.disCur.l1 ≠ noDischarge then
        (if x.disPow.l1 ≠ noDischarge then
          some (max (inUnit .A unit v (x.phases.getD dp) x.disCur.l1) (inUnit .W unit v (x.phases.getD dp) x.disPow.l1))
        else some (inUnit .A unit v (x.phases.getD dp) x.disCur.l1))
      else (if x.disPow.l1 ≠ noDischarge then some (inUnit .W unit v (x.phases.getD dp) x.disPow.l1) else none)) := by
    unfold convert inUnit Limit.inUnit
    cases unit <;> by_cases h1 : x.disCur.l1 = noDischarge <;> by_cases h2 : x.disPow.l1 = noDischarge <;>
      simp [both, store, transform, h1, h2, g3, g4, max_comm]
  rw [conv]
  generalize x.phases.getD dp = n at hn
  have units : ∀ y : Profile × Period, y.1.unit = .A ∨ y.1.unit = .W := by intro y; cases y.1.unit <;> simp
  refine ⟨?_, ?_⟩
  · intro hnil
    have none_in : ∀ y d, some y ∈ rs → y.2.discharge = some d → ¬ d < 0 := by
      intro y d hy hd hneg
      have : inUnit y.1.unit unit v n d ∈ ([] : List Rat) := by
        rw [← hnil, mem_dischargesIn]; exact ⟨y, d, hy, hd, hneg, rfl⟩
      cases this
    rw [if_neg, if_neg]
    · rcases FW with ⟨a, _⟩ | ⟨_, ⟨y, hy, _, hd⟩, c, _⟩
      · simpa using a
      · exact absurd c (none_in y _ hy hd)
    · rcases FA with ⟨a, _⟩ | ⟨_, ⟨y, hy, _, hd⟩, c, _⟩
      · simpa using a
      · exact absurd c (none_in y _ hy hd)
  · intro hne
    rcases FA with ⟨a1, a2⟩ | ⟨a1, ⟨ya, hya, ua, da⟩, a3, a4⟩ <;> rcases FW with ⟨b1, b2⟩ | ⟨b1, ⟨yb, hyb, ub, db⟩, b3, b4⟩
    · exfalso
      apply hne
      rw [List.eq_nil_iff_forall_not_mem]
      intro z hz
      obtain ⟨y, d, hy, hd, hneg, _⟩ := mem_dischargesIn.1 hz
      rcases units y with hu | hu
      · exact a2 y d hy hu hd hneg
      · exact b2 y d hy hu hd hneg
    · rw [if_neg (by simpa using a1), if_pos b1]
      refine ⟨_, rfl, mem_dischargesIn.2 ⟨yb, _, hyb, db, b3, by rw [ub]⟩, ?_⟩
      intro z hz
      obtain ⟨y, d, hy, hd, hneg, rfl⟩ := mem_dischargesIn.1 hz
      rcases units y with hu | hu
      · exact absurd hneg (a2 y d hy hu hd)
      · rw [hu]; exact inUnit_pos_mono hv hn (b4 y d hy hu hd hneg)
    · rw [if_pos a1, if_neg (by simpa using b1)]
      refine ⟨_, rfl, mem_dischargesIn.2 ⟨ya, _, hya, da, a3, by rw [ua]⟩, ?_⟩
      intro z hz
      obtain ⟨y, d, hy, hd, hneg, rfl⟩ := mem_dischargesIn.1 hz
      rcases units y with hu | hu
      · rw [hu]; exact inUnit_pos_mono hv hn (a4 y d hy hu hd hneg)
      · exact absurd hneg (b2 y d hy hu hd)
    · rw [if_pos a1, if_pos b1]
      refine ⟨_, rfl, ?_, ?_⟩
      · rcases le_total (inUnit .A unit v n x.disCur.l1) (inUnit .W unit v n x.disPow.l1) with hle | hle
        · rw [max_eq_right hle]; exact mem_dischargesIn.2 ⟨yb, _, hyb, db, b3, by rw [ub]⟩
        · rw [max_eq_left hle]; exact mem_dischargesIn.2 ⟨ya, _, hya, da, a3, by rw [ua]⟩
      · intro z hz
        obtain ⟨y, d, hy, hd, hneg, rfl⟩ := mem_dischargesIn.1 hz
        rcases units y with hu | hu
        · rw [hu]; exact le_trans (inUnit_pos_mono hv hn (a4 y d hy hu hd hneg)) (le_max_left _ _)
        · rw [hu]; exact le_trans (inUnit_pos_mono hv hn (b4 y d hy hu hd hneg)) (le_max_right _ _)

/-! ## Setpoints -/

/-- Invariant of the merge for one unit: a setpoint is within the limits merged so far. -/
def SetInv (s cap dis : Rat) : Prop := 0 ≤ cap ∧ dis < 0 ∧ (s = noSetpoint ∨ (0 ≤ s ∧ s ≤ cap) ∨ (s < 0 ∧ dis ≤ s))

theorem setSetpoint_inv (s1 s2 cap dis : PL) (h1 : 0 ≤ cap.l1) (h2 : dis.l1 < 0) :
    SetInv (setSetpoint s1 s2 cap dis).l1 cap.l1 dis.l1 := by
  refine ⟨h1, h2, ?_⟩
  unfold setSetpoint
  split
  · right
    simp only
    generalize (if s2.l1 ≠ noSetpoint ∧ s1.l1 ≠ noSetpoint then
        (if s1.l1 < 0 then ({ s1 with l1 := max s1.l1 s2.l1 } : PL) else { s1 with l1 := min s1.l1 s2.l1 })
      else if s2.l1 ≠ noSetpoint then { s1 with l1 := s2.l1 } else s1) = s
    split
    · right
      rename_i hs
      simp only [getMaxPL, getMax, Option.map_some]
      refine ⟨?_, le_max_right _ _⟩
      apply max_lt _ h2
      split
      · exact max_lt hs (by assumption)
      · exact hs
    · left
      rename_i hs
      simp only [getMinPL, getMin, Option.map_some]
      refine ⟨?_, min_le_right _ _⟩
      apply le_min _ h1
      split
      · exact le_min (not_lt.1 hs) (by assumption)
      · exact not_lt.1 hs
  · rename_i hc
    left
    simp only [not_or, ne_eq, not_not] at hc
    exact hc.2

theorem getMin_nonneg {a b : Rat} (h : 0 ≤ a) : 0 ≤ getMin a b none := by
  rw [getMin_none]; split
  · rename_i hc; exact hc.1
  · exact h

theorem getMax_neg {a b : Rat} (h : a < 0) : getMax a b none < 0 := by
  unfold getMax; simp only; split
  · exact max_lt h (by assumption)
  · exact h

theorem setpoint_fold (ph : Option Int) (xs : List IP) : ∀ acc : IP,
    SetInv acc.setCur.l1 acc.cur.l1 acc.disCur.l1 → SetInv acc.setPow.l1 acc.pow.l1 acc.disPow.l1 →
    let r := xs.foldl (lowestStep false ph) acc
    SetInv r.setCur.l1 r.cur.l1 r.disCur.l1 ∧ SetInv r.setPow.l1 r.pow.l1 r.disPow.l1 := by
  induction xs with
  | nil => intro acc h1 h2; exact ⟨h1, h2⟩
  | cons x xs ih =>
    intro acc h1 h2
    simp only [List.foldl_cons]
    apply ih
    · simp only [lowestStep, Bool.false_eq_true, if_false]
      exact setSetpoint_inv _ _ _ _ (getMin_nonneg h1.1) (getMax_neg h1.2.1)
    · simp only [lowestStep, Bool.false_eq_true, if_false]
      exact setSetpoint_inv _ _ _ _ (getMin_nonneg h2.1) (getMax_neg h2.2.1)

theorem setSetpoint_l2 (s1 s2 cap dis : PL) (h1 : s1.l2 = fltMax) (h2 : s2.l2 = fltMax) (h3 : cap.l2 = fltMax) (h4 : dis.l2 = noDischarge) :
    (setSetpoint s1 s2 cap dis).l2 = fltMax := by
  have f0 : (0 : Rat) ≤ fltMax := by linarith [fltMax_big]
  have f1 : ¬ fltMax < 0 := not_lt.2 f0
  have key : ∀ s : PL, s.l2 = fltMax → (if s.l1 < 0 then getMaxPL s s2 (some dis) else getMinPL s s2 (some cap)).l2 = fltMax := by
    intro s hs
    split
    · simp only [getMaxPL, getMax, Option.map_some, hs, h2, h4, f1, if_false]
      exact max_eq_left (by unfold noDischarge; linarith)
    · simp only [getMinPL, getMin, Option.map_some, hs, h2, h3, f0, if_true, min_self]
  unfold setSetpoint
  split
  · apply key
    split
    · split <;> exact h1
    · split <;> exact h1
  · exact h1

theorem lowest_fold_scalar (ph : Option Int) (xs : List IP) (hx : ∀ x ∈ xs, Scalar x) : ∀ acc : IP,
    acc.cur.l2 = fltMax → acc.pow.l2 = fltMax → acc.disCur.l2 = noDischarge → acc.disPow.l2 = noDischarge →
    acc.setCur.l2 = fltMax → acc.setPow.l2 = fltMax →
    (xs.foldl (lowestStep false ph) acc).setCur.l2 = fltMax ∧ (xs.foldl (lowestStep false ph) acc).setPow.l2 = fltMax := by
  induction xs with
  | nil => intro acc _ _ _ _ h5 h6; exact ⟨h5, h6⟩
  | cons x xs ih =>
    intro acc h1 h2 h3 h4 h5 h6
    have hs := hx x (by simp)
    have c1 : (getMinPL acc.cur x.cur none).l2 = fltMax := by simp [getMinPL, getMin_none, h1, hs.cur.1, noLimit_neg]
    have c2 : (getMinPL acc.pow x.pow none).l2 = fltMax := by simp [getMinPL, getMin_none, h2, hs.pow.1, noLimit_neg]
    have c3 : (getMaxPL acc.disCur x.disCur none).l2 = noDischarge := by simp [getMaxPL, getMax, h3, hs.disCur.1]
    have c4 : (getMaxPL acc.disPow x.disPow none).l2 = noDischarge := by simp [getMaxPL, getMax, h4, hs.disPow.1]
    rw [List.foldl_cons]
    apply ih (fun y hy => hx y (List.mem_cons_of_mem _ hy))
    · exact c1
    · exact c2
    · exact c3
    · exact c4
    · exact setSetpoint_l2 _ _ _ _ h5 hs.setCur.1 c1 c3
    · exact setSetpoint_l2 _ _ _ _ h6 hs.setPow.1 c2 c4

theorem setSetpoint_none (s1 s2 cap dis : PL) (h1 : s1.l1 = noSetpoint) (h2 : s2.l1 = noSetpoint) :
    (setSetpoint s1 s2 cap dis).l1 = noSetpoint := by
  unfold setSetpoint
  rw [if_neg (by simp [h1, h2])]
  exact h1

theorem fold_setCur_none (ph : Option Int) (xs : List IP) (hx : ∀ x ∈ xs, x.setCur.l1 = noSetpoint) : ∀ acc : IP,
    acc.setCur.l1 = noSetpoint → (xs.foldl (lowestStep false ph) acc).setCur.l1 = noSetpoint := by
  induction xs with
  | nil => intro acc h; exact h
  | cons x xs ih =>
    intro acc h
    rw [List.foldl_cons]
    exact ih (fun y hy => hx y (List.mem_cons_of_mem _ hy)) _ (setSetpoint_none _ _ _ _ h (hx x (by simp)))

theorem fold_setPow_none (ph : Option Int) (xs : List IP) (hx : ∀ x ∈ xs, x.setPow.l1 = noSetpoint) : ∀ acc : IP,
    acc.setPow.l1 = noSetpoint → (xs.foldl (lowestStep false ph) acc).setPow.l1 = noSetpoint := by
  induction xs with
  | nil => intro acc h; exact h
  | cons x xs ih =>
    intro acc h
    rw [List.foldl_cons]
    exact ih (fun y hy => hx y (List.mem_cons_of_mem _ hy)) _ (setSetpoint_none _ _ _ _ h (hx x (by simp)))

/-- The converted setpoint if all profiles use the unit `u`, and that it is within all limits of the profiles. -/
theorem setpoint_within (v21 : Bool) (unit : RUnit) (dl : Rat) (dp : Int) (v : Rat) (rs : List (Option (Profile × Period)))
    (hr : ∀ r ∈ rs, Good r) (u : RUnit) (hu : ∀ y, some y ∈ rs → y.1.unit = u) (s : Rat)
    (hs : (convert unit dl dp v (lowestComb v21 (rs.map toIP))).setpoint = some s) :
    ∃ s0, s = inUnit u unit v ((lowestComb v21 (rs.map toIP)).phases.getD dp) s0 ∧
      ((0 ≤ s0 ∧ ∀ y l, some y ∈ rs → limitValue y.1 y.2 = some l → s0 ≤ l) ∨
       (s0 < 0 ∧ ∀ y d, some y ∈ rs → y.2.discharge = some d → d < 0 → d ≤ s0)) := by
  have hsc : ∀ x ∈ rs.map toIP, Scalar x := by
    intro x hx
    obtain ⟨r, hrm, rfl⟩ := List.mem_map.1 hx
    exact toIP_scalar (hr r hrm)
  have e := lowestComb_eq v21 (rs.map toIP) (notThree (Or.inr hsc))
  have f0 : (0 : Rat) ≤ fltMax := by linarith [fltMax_big]
  have nd : noDischarge < 0 := by linarith [noDischarge_lt]
  generalize hph : lowestPhasesOf (rs.map toIP) = ph at e
  obtain ⟨inv1, inv2⟩ := setpoint_fold ph (rs.map toIP) (start0 ph) ⟨f0, nd, Or.inl rfl⟩ ⟨f0, nd, Or.inl rfl⟩
  obtain ⟨l1, l2⟩ := lowest_fold_scalar ph (rs.map toIP) hsc (start0 ph) rfl rfl rfl rfl rfl rfl
  obtain ⟨c1, c2, _⟩ := lowest_fold ph (rs.map toIP) (start0 ph)
  obtain ⟨d1, d2, _, _⟩ := lowest_fold_dis ph (rs.map toIP) (start0 ph)
  have m1 := SC16.minFold_spec ((rs.map toIP).map fun x => x.cur.l1) fltMax (le_refl _) (by
    intro z hz
    simp only [List.mem_map, exists_exists_and_eq_and] at hz
    obtain ⟨r, hrm, rfl⟩ := hz
    exact (ok_toIP (hr r hrm)).cur)
  have m2 := SC16.minFold_spec ((rs.map toIP).map fun x => x.pow.l1) fltMax (le_refl _) (by
    intro z hz
    simp only [List.mem_map, exists_exists_and_eq_and] at hz
    obtain ⟨r, hrm, rfl⟩ := hz
    exact (ok_toIP (hr r hrm)).pow)
  have n1 := disFold_spec ((rs.map toIP).map fun x => x.disCur.l1) noDischarge (le_refl _) nd (by
    intro z hz
    simp only [List.mem_map, exists_exists_and_eq_and] at hz
    obtain ⟨r, hrm, rfl⟩ := hz
    exact (toIP_dis (hr r hrm)).1)
  have n2 := disFold_spec ((rs.map toIP).map fun x => x.disPow.l1) noDischarge (le_refl _) nd (by
    intro z hz
    simp only [List.mem_map, exists_exists_and_eq_and] at hz
    obtain ⟨r, hrm, rfl⟩ := hz
    exact (toIP_dis (hr r hrm)).2.1)
  simp only at m1 m2 n1 n2 inv1 inv2
  have k1 := m1.2.2
  have k2 := m2.2.2
  have k3 := n1.2.2.2
  have k4 := n2.2.2.2
  rw [show fltMax = (start0 ph).cur.l1 from rfl, ← c1] at k1
  rw [show fltMax = (start0 ph).pow.l1 from rfl, ← c2] at k2
  rw [show noDischarge = (start0 ph).disCur.l1 from rfl, ← d1] at k3
  rw [show noDischarge = (start0 ph).disPow.l1 from rfl, ← d2] at k4
  generalize hx : lowestComb v21 (rs.map toIP) = x at e hs ⊢
  cases u with
  | A =>
    have q := fold_setPow_none ph (rs.map toIP) (by
      intro z hz
      obtain ⟨r, hrm, rfl⟩ := List.mem_map.1 hz
      rcases r with _ | ⟨p, per⟩
      · rfl
      · have := hu _ hrm
        simp only at this
        simp only [toIP]; unfold content; rw [this]; rfl) (start0 ph) rfl
    generalize (rs.map toIP).foldl (lowestStep false ph) (start0 ph) = F at *
    have x1 : x.setCur.l1 = F.setCur.l1 := by
      rw [e]; simp only [replaceMax, noSetpoint]; split <;> simp_all
    have x2 : x.setPow.l1 = noSetpoint := by
      rw [e]; simp only [replaceMax, q]; simp [noSetpoint]
    have x3 : x.setCur.l2 = noSetpoint := by
      rw [e]; simp only [replaceMax, l1]; simp [noSetpoint]
    have hs' : F.setCur.l1 ≠ noSetpoint ∧ s = inUnit .A unit v (x.phases.getD dp) F.setCur.l1 := by
      unfold convert at hs
      by_cases hn : F.setCur.l1 = noSetpoint
      · cases unit <;> simp [both, store, transform, x1, x2, hn] at hs
      · refine ⟨hn, ?_⟩
        unfold inUnit Limit.inUnit
        cases unit <;> simp [both, store, transform, x1, x2, x3, hn] at hs ⊢ <;> exact hs.symm
    refine ⟨F.setCur.l1, hs'.2, ?_⟩
    rcases inv1.2.2 with h | ⟨h1, h2⟩ | ⟨h1, h2⟩
    · exact absurd h hs'.1
    · left
      refine ⟨h1, ?_⟩
      intro y l hy hl
      have hb := limitValue_bound (hr _ hy) hl
      have hmem : l ∈ (rs.map toIP).map fun x => x.cur.l1 := by
        simp only [List.mem_map, exists_exists_and_eq_and]
        refine ⟨some y, hy, ?_⟩
        have h1 := hu y hy
        have h2 := limitValue_eq y.1 y.2
        simp only [toIP]; unfold content; rw [h1]
        simp only [h2, hl, Option.getD_some]
      exact le_trans h2 (k1 l hmem hb.1)
    · right
      refine ⟨h1, ?_⟩
      intro y d hy hd hneg
      have hmem : d ∈ (rs.map toIP).map fun x => x.disCur.l1 := by
        simp only [List.mem_map, exists_exists_and_eq_and]
        exact ⟨some y, hy, ((toIP_dis (hr _ hy)).2.2.2.2 y d rfl hd).1 (hu y hy)⟩
      exact le_trans (k3 d hmem hneg) h2
  | W =>
    have q := fold_setCur_none ph (rs.map toIP) (by
      intro z hz
      obtain ⟨r, hrm, rfl⟩ := List.mem_map.1 hz
      rcases r with _ | ⟨p, per⟩
      · rfl
      · have := hu _ hrm
        simp only at this
        simp only [toIP]; unfold content; rw [this]; rfl) (start0 ph) rfl
    generalize (rs.map toIP).foldl (lowestStep false ph) (start0 ph) = F at *
    have x1 : x.setPow.l1 = F.setPow.l1 := by
      rw [e]; simp only [replaceMax, noSetpoint]; split <;> simp_all
    have x2 : x.setCur.l1 = noSetpoint := by
      rw [e]; simp only [replaceMax, q]; simp [noSetpoint]
    have x3 : x.setPow.l2 = noSetpoint := by
      rw [e]; simp only [replaceMax, l2]; simp [noSetpoint]
    have hs' : F.setPow.l1 ≠ noSetpoint ∧ s = inUnit .W unit v (x.phases.getD dp) F.setPow.l1 := by
      unfold convert at hs
      by_cases hn : F.setPow.l1 = noSetpoint
      · cases unit <;> simp [both, store, transform, x1, x2, hn] at hs
      · refine ⟨hn, ?_⟩
        unfold inUnit Limit.inUnit
        cases unit <;> simp [both, store, transform, x1, x2, x3, hn] at hs ⊢ <;> exact hs.symm
    refine ⟨F.setPow.l1, hs'.2, ?_⟩
    rcases inv2.2.2 with h | ⟨h1, h2⟩ | ⟨h1, h2⟩
    · exact absurd h hs'.1
    · left
      refine ⟨h1, ?_⟩
      intro y l hy hl
      have hb := limitValue_bound (hr _ hy) hl
      have hmem : l ∈ (rs.map toIP).map fun x => x.pow.l1 := by
        simp only [List.mem_map, exists_exists_and_eq_and]
        refine ⟨some y, hy, ?_⟩
        have h1 := hu y hy
        have h2 := limitValue_eq y.1 y.2
        simp only [toIP]; unfold content; rw [h1]
        simp only [h2, hl, Option.getD_some]
      exact le_trans h2 (k2 l hmem hb.1)
    · right
      refine ⟨h1, ?_⟩
      intro y d hy hd hneg
      have hmem : d ∈ (rs.map toIP).map fun x => x.disPow.l1 := by
        simp only [List.mem_map, exists_exists_and_eq_and]
        exact ⟨some y, hy, ((toIP_dis (hr _ hy)).2.2.2.2 y d rfl hd).2 (hu y hy)⟩
      exact le_trans (k4 d hmem hneg) h2

/-! ## Sum over the EVSEs -/

theorem sum_fold (ph : Option Int) (cd pd : Rat) (xs : List IP) : ∀ acc : IP,
    (xs.foldl (sumStep false ph cd pd) acc).cur.l1 = acc.cur.l1 + (xs.map fun x => if (0 : Rat) ≤ x.cur.l1 then x.cur.l1 else cd).sum ∧
    (xs.foldl (sumStep false ph cd pd) acc).pow.l1 = acc.pow.l1 + (xs.map fun x => if (0 : Rat) ≤ x.pow.l1 then x.pow.l1 else pd).sum ∧
    (xs.foldl (sumStep false ph cd pd) acc).phases = acc.phases := by
  induction xs with
  | nil => intro acc; simp
  | cons x xs ih =>
    intro acc
    obtain ⟨h1, h2, h3⟩ := ih (sumStep false ph cd pd acc x)
    rw [List.foldl_cons, h1, h2, h3]
    simp [sumStep, add_assoc]

theorem sum_fold_l2 (ph : Option Int) (cd pd : Rat) (xs : List IP) : ∀ acc : IP, xs ≠ [] ∨ LimScalar acc →
    LimScalar (xs.foldl (sumStep false ph cd pd) acc) := by
  induction xs with
  | nil => intro acc h; exact h.resolve_left (by simp)
  | cons x xs ih =>
    intro acc _
    rw [List.foldl_cons]
    exact ih _ (Or.inr ⟨rfl, rfl⟩)

/-- The share of an EVSE in the sums. -/
theorem share_of (cfg : Config) (rs : List (Option (Profile × Period))) (hr : ∀ r ∈ rs, Good r) :
    share cfg .A ((rs.flatMap Option.toList).map constraintOf)
      (if 0 ≤ (lowestComb false (rs.map toIP)).cur.l1 then (lowestComb false (rs.map toIP)).cur.l1 else cfg.currentLimit) ∧
    share cfg .W ((rs.flatMap Option.toList).map constraintOf)
      (if 0 ≤ (lowestComb false (rs.map toIP)).pow.l1 then (lowestComb false (rs.map toIP)).pow.l1 else cfg.powerLimit) ∧
    (lowestComb false (rs.map toIP)).phases = lowestPhases (((rs.flatMap Option.toList).map constraintOf).map Constraint.phases) := by
  obtain ⟨a, b, c, _⟩ := lowest_proj false (rs.map toIP) rfl
  obtain ⟨_, s2, s3, s4⟩ := SC16.lowestComb_spec ((rs.map toIP).map proj) (by
    intro z hz
    simp only [List.mem_map, exists_exists_and_eq_and] at hz
    obtain ⟨r, hrm, rfl⟩ := hz
    exact ok_toIP (hr r hrm))
  rw [← a] at s3
  rw [← b] at s4
  rw [← c] at s2
  have memv : ∀ unit l, l ∈ (((rs.flatMap Option.toList).map constraintOf).filter (fun c => decide (c.unit = unit))).filterMap
      Constraint.limit ↔ ∃ y, some y ∈ rs ∧ y.1.unit = unit ∧ limitValue y.1 y.2 = some l := by
    intro unit l
    simp only [List.mem_filterMap, List.mem_filter, List.mem_map, List.mem_flatMap, decide_eq_true_eq]
    constructor
    · rintro ⟨c, ⟨⟨y, ⟨r, hr, hy⟩, rfl⟩, hu⟩, hl⟩
      have : r = some y := by simpa using hy
      exact ⟨y, this ▸ hr, hu, hl⟩
    · rintro ⟨y, hy, hu, hl⟩
      exact ⟨constraintOf y, ⟨⟨y, ⟨some y, hy, by simp⟩, rfl⟩, hu⟩, hl⟩
  have lim : ∀ y, some y ∈ rs → (y.1.unit = .A → (proj (toIP (some y))).cur = (limitValue y.1 y.2).getD noLimit ∧
      (proj (toIP (some y))).pow = noLimit) ∧ (y.1.unit = .W → (proj (toIP (some y))).pow = (limitValue y.1 y.2).getD noLimit ∧
      (proj (toIP (some y))).cur = noLimit) := by
    intro y hy
    refine ⟨?_, ?_⟩ <;> intro hu <;> simp only [toIP, proj] <;> unfold content <;> rw [hu] <;>
      exact ⟨limitValue_eq y.1 y.2, rfl⟩
  have units : ∀ y : Profile × Period, y.1.unit = .A ∨ y.1.unit = .W := by intro y; cases y.1.unit <;> simp
  refine ⟨⟨?_, ?_⟩, ⟨?_, ?_⟩, ?_⟩
  · intro hnil
    rw [if_neg]
    · rfl
    · rcases s3 with ⟨h, _⟩ | ⟨_, h0, ⟨z, hz, he⟩, _⟩
      · rw [h]; exact noLimit_neg
      · exfalso
        simp only [List.mem_map, exists_exists_and_eq_and] at hz
        obtain ⟨r, hrm, rfl⟩ := hz
        rcases r with _ | y
        · rw [← he] at h0; exact noLimit_neg h0
        · rcases units y with hu | hu
          · have := ((lim y hrm).1 hu).1
            rw [he] at this
            cases hl : limitValue y.1 y.2 with
            | none => rw [hl] at this; rw [this] at h0; exact noLimit_neg h0
            | some l =>
              have : l ∈ ([] : List Rat) := by rw [← hnil, memv]; exact ⟨y, hrm, hu, hl⟩
              cases this
          · have := ((lim y hrm).2 hu).2
            rw [he] at this; rw [this] at h0; exact noLimit_neg h0
  · intro hne
    obtain ⟨l, hl⟩ := List.exists_mem_of_ne_nil _ hne
    obtain ⟨y, hy, hu, hyl⟩ := (memv _ _).1 hl
    have hp : ∀ y l, some y ∈ rs → y.1.unit = .A → limitValue y.1 y.2 = some l →
        (proj (toIP (some y))) ∈ (rs.map toIP).map proj ∧ (proj (toIP (some y))).cur = l ∧ 0 ≤ l := by
      intro y l hy hu hyl
      refine ⟨by simp only [List.mem_map, exists_exists_and_eq_and]; exact ⟨some y, hy, rfl⟩, ?_, (limitValue_bound (hr _ hy) hyl).1⟩
      rw [((lim y hy).1 hu).1, hyl]; rfl
    rcases s3 with ⟨_, h⟩ | ⟨_, h0, ⟨z, hz, he⟩, hmin⟩
    · obtain ⟨q1, q2, q3⟩ := hp y l hy hu hyl
      exact absurd (q2.symm ▸ q3) (h _ q1)
    · rw [if_pos h0]
      refine ⟨?_, ?_⟩
      · simp only [List.mem_map, exists_exists_and_eq_and] at hz
        obtain ⟨r, hrm, rfl⟩ := hz
        rcases r with _ | y'
        · rw [← he] at h0; exact absurd h0 noLimit_neg
        · rcases units y' with hu' | hu'
          · have := ((lim y' hrm).1 hu').1
            rw [he] at this
            cases hl' : limitValue y'.1 y'.2 with
            | none => rw [hl'] at this; rw [this] at h0; exact absurd h0 noLimit_neg
            | some l' => rw [hl'] at this; rw [memv]; exact ⟨y', hrm, hu', by rw [this]; exact hl'⟩
          · have := ((lim y' hrm).2 hu').2
            rw [he] at this; rw [this] at h0; exact absurd h0 noLimit_neg
      · intro l' hl'
        obtain ⟨y', hy', hu', hyl'⟩ := (memv _ _).1 hl'
        obtain ⟨q1, q2, q3⟩ := hp y' l' hy' hu' hyl'
        have := hmin _ q1 (q2.symm ▸ q3)
        rwa [q2] at this
  · intro hnil
    rw [if_neg]
    · rfl
    · rcases s4 with ⟨h, _⟩ | ⟨_, h0, ⟨z, hz, he⟩, _⟩
      · rw [h]; exact noLimit_neg
      · exfalso
        simp only [List.mem_map, exists_exists_and_eq_and] at hz
        obtain ⟨r, hrm, rfl⟩ := hz
        rcases r with _ | y
        · rw [← he] at h0; exact noLimit_neg h0
        · rcases units y with hu | hu
          · have := ((lim y hrm).1 hu).2
            rw [he] at this; rw [this] at h0; exact noLimit_neg h0
          · have := ((lim y hrm).2 hu).1
            rw [he] at this
            cases hl : limitValue y.1 y.2 with
            | none => rw [hl] at this; rw [this] at h0; exact noLimit_neg h0
            | some l =>
              have : l ∈ ([] : List Rat) := by rw [← hnil, memv]; exact ⟨y, hrm, hu, hl⟩
              cases this
  · intro hne
    obtain ⟨l, hl⟩ := List.exists_mem_of_ne_nil _ hne
    obtain ⟨y, hy, hu, hyl⟩ := (memv _ _).1 hl
    have hp : ∀ y l, some y ∈ rs → y.1.unit = .W → limitValue y.1 y.2 = some l →
        (proj (toIP (some y))) ∈ (rs.map toIP).map proj ∧ (proj (toIP (some y))).pow = l ∧ 0 ≤ l := by
      intro y l hy hu hyl
      refine ⟨by simp only [List.mem_map, exists_exists_and_eq_and]; exact ⟨some y, hy, rfl⟩, ?_, (limitValue_bound (hr _ hy) hyl).1⟩
      rw [((lim y hy).2 hu).1, hyl]; rfl
    rcases s4 with ⟨_, h⟩ | ⟨_, h0, ⟨z, hz, he⟩, hmin⟩
    · obtain ⟨q1, q2, q3⟩ := hp y l hy hu hyl
      exact absurd (q2.symm ▸ q3) (h _ q1)
    · rw [if_pos h0]
      refine ⟨?_, ?_⟩
      · simp only [List.mem_map, exists_exists_and_eq_and] at hz
        obtain ⟨r, hrm, rfl⟩ := hz
        rcases r with _ | y'
        · rw [← he] at h0; exact absurd h0 noLimit_neg
        · rcases units y' with hu' | hu'
          · have := ((lim y' hrm).1 hu').2
            rw [he] at this; rw [this] at h0; exact absurd h0 noLimit_neg
          · have := ((lim y' hrm).2 hu').1
            rw [he] at this
            cases hl' : limitValue y'.1 y'.2 with
            | none => rw [hl'] at this; rw [this] at h0; exact absurd h0 noLimit_neg
            | some l' => rw [hl'] at this; rw [memv]; exact ⟨y', hrm, hu', by rw [this]; exact hl'⟩
      · intro l' hl'
        obtain ⟨y', hy', hu', hyl'⟩ := (memv _ _).1 hl'
        obtain ⟨q1, q2, q3⟩ := hp y' l' hy' hu' hyl'
        have := hmin _ q1 (q2.symm ▸ q3)
        rwa [q2] at this
  · rw [s2]
    apply SC16.lowestPhases_append
    intro n
    simp only [List.map_map, List.mem_map, List.mem_flatMap, Function.comp]
    constructor
    · rintro ⟨r, hrm, he⟩
      have he' : (toIP r).phases = some n := he
      rw [phases_toIP] at he'
      rcases r with _ | y
      · cases he'
      · exact ⟨y, ⟨some y, hrm, by simp⟩, he'⟩
    · rintro ⟨y, ⟨r, hrm, hy⟩, he⟩
      have : r = some y := by simpa using hy
      subst this
      refine ⟨some y, hrm, ?_⟩
      show (toIP (some y)).phases = some n
      rw [phases_toIP]; exact he

end Verif.SC2
