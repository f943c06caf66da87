import Verif.SmartCharging.V16Composite
import Verif.SmartCharging.V2Entries

/-! Merging and converting the limits of one instant (2.x), by projecting to the calculation of 1.6 where the two agree. -/

set_option linter.unusedSimpArgs false

namespace Verif.SC2
open Verif.SC
open Verif.SC16 (RUnit fltMax noLimit Limit lowestPhases highestPhases IsMin pickPhases noLimit_neg fltMax_big)

/-- The limits and number of phases of an intermediate period. -/
def proj (x : IP) : SC16.IP := ⟨x.cur.l1, x.pow.l1, 0, 0, x.phases⟩

/-- No limit for the second phase. -/
structure LimScalar (x : IP) : Prop where
  cur : x.cur.l2 = noLimit
  pow : x.pow.l2 = noLimit

/-- No value for the second and third phase. -/
structure Scalar (x : IP) : Prop where
  cur : x.cur.l2 = noLimit ∧ x.cur.l3 = noLimit
  pow : x.pow.l2 = noLimit ∧ x.pow.l3 = noLimit
  disCur : x.disCur.l2 = noDischarge ∧ x.disCur.l3 = noDischarge
  disPow : x.disPow.l2 = noDischarge ∧ x.disPow.l3 = noDischarge
  setCur : x.setCur.l2 = noSetpoint ∧ x.setCur.l3 = noSetpoint
  setPow : x.setPow.l2 = noSetpoint ∧ x.setPow.l3 = noSetpoint

theorem Scalar.threePhase {x : IP} (h : Scalar x) : threePhase x = false := by
  obtain ⟨⟨a1, a2⟩, ⟨b1, b2⟩, ⟨c1, c2⟩, ⟨d1, d2⟩, ⟨e1, e2⟩, ⟨f1, f2⟩⟩ := h
  simp [SC2.threePhase, a1, a2, b1, b2, c1, c2, d1, d2, e1, e2, f1, f2]

theorem Scalar.lim {x : IP} (h : Scalar x) : LimScalar x := ⟨h.cur.1, h.pow.1⟩

theorem notThree {v21 : Bool} {xs : List IP} (h : v21 = false ∨ ∀ x ∈ xs, Scalar x) : (v21 && xs.any threePhase) = false := by
  rcases h with h | h
  · simp [h]
  · rw [Bool.and_eq_false_iff]; right
    rw [List.any_eq_false]
    intro x hx
    simp [(h x hx).threePhase]

theorem getMin_none (a b : Rat) : getMin a b none = if 0 ≤ b ∧ b < a then b else a := by
  unfold getMin
  simp only
  by_cases h0 : 0 ≤ b
  · rw [if_pos h0]
    by_cases h1 : b < a
    · rw [if_pos ⟨h0, h1⟩, min_eq_right h1.le]
    · rw [if_neg (fun h => h1 h.2), min_eq_left (not_lt.1 h1)]
  · rw [if_neg h0, if_neg (fun h => h0 h.1)]

theorem lowest_fold (ph : Option Int) (xs : List IP) : ∀ acc : IP,
    (xs.foldl (lowestStep false ph) acc).cur.l1 = (xs.map fun x => x.cur.l1).foldl (fun a x => if 0 ≤ x ∧ x < a then x else a) acc.cur.l1 ∧
    (xs.foldl (lowestStep false ph) acc).pow.l1 = (xs.map fun x => x.pow.l1).foldl (fun a x => if 0 ≤ x ∧ x < a then x else a) acc.pow.l1 ∧
    (xs.foldl (lowestStep false ph) acc).phases = acc.phases := by
  induction xs with
  | nil => intro acc; exact ⟨rfl, rfl, rfl⟩
  | cons x xs ih =>
    intro acc
    obtain ⟨h1, h2, h3⟩ := ih (lowestStep false ph acc x)
    simp only [List.foldl_cons, List.map_cons]
    rw [h1, h2, h3]
    simp [lowestStep, getMinPL, getMin_none]

theorem lowest_fold_l2 (ph : Option Int) (xs : List IP) (hx : ∀ x ∈ xs, LimScalar x) : ∀ acc : IP,
    (xs.foldl (lowestStep false ph) acc).cur.l2 = acc.cur.l2 ∧ (xs.foldl (lowestStep false ph) acc).pow.l2 = acc.pow.l2 := by
  induction xs with
  | nil => intro acc; exact ⟨rfl, rfl⟩
  | cons x xs ih =>
    intro acc
    obtain ⟨h1, h2⟩ := ih (fun y hy => hx y (List.mem_cons_of_mem _ hy)) (lowestStep false ph acc x)
    have := hx x (by simp)
    simp only [List.foldl_cons]
    rw [h1, h2]
    simp [lowestStep, getMinPL, getMin_none, this.cur, this.pow, noLimit_neg]

theorem lowestPhasesOf_eq (xs : List IP) : lowestPhasesOf xs = lowestPhases (xs.map IP.phases) := by
  unfold lowestPhasesOf
  have := SC16.pickLow_fold (xs.map IP.phases) none
  rw [List.foldl_map] at this
  rw [this]; rfl

theorem highestPhasesOf_eq (xs : List IP) : highestPhasesOf xs = highestPhases (xs.map IP.phases) := by
  unfold highestPhasesOf
  have := SC16.pickHigh_fold (xs.map IP.phases) none
  rw [List.foldl_map] at this
  rw [this]; rfl

/-- Initial value of the merge. -/
def start0 (ph : Option Int) : IP := ⟨.all fltMax, .all fltMax, .all noDischarge, .all noDischarge, .all fltMax, .all fltMax, ph⟩

theorem lowestComb_eq (v21 : Bool) (xs : List IP) (h : (v21 && xs.any threePhase) = false) :
    lowestComb v21 xs = { xs.foldl (lowestStep false (lowestPhasesOf xs)) (start0 (lowestPhasesOf xs)) with
      cur := replaceMax (xs.foldl (lowestStep false (lowestPhasesOf xs)) (start0 (lowestPhasesOf xs))).cur fltMax noLimit
      pow := replaceMax (xs.foldl (lowestStep false (lowestPhasesOf xs)) (start0 (lowestPhasesOf xs))).pow fltMax noLimit
      setCur := replaceMax (xs.foldl (lowestStep false (lowestPhasesOf xs)) (start0 (lowestPhasesOf xs))).setCur fltMax noSetpoint
      setPow := replaceMax (xs.foldl (lowestStep false (lowestPhasesOf xs)) (start0 (lowestPhasesOf xs))).setPow fltMax noSetpoint } := by
  unfold lowestComb
  simp only [h]
  rfl

theorem v16_lowestComb (xs : List SC16.IP) :
    (SC16.lowestComb xs).cur = (if (xs.foldl SC16.lowestStep ⟨fltMax, fltMax, 0, 0, none⟩).cur = fltMax then noLimit
        else (xs.foldl SC16.lowestStep ⟨fltMax, fltMax, 0, 0, none⟩).cur) ∧
      (SC16.lowestComb xs).pow = (if (xs.foldl SC16.lowestStep ⟨fltMax, fltMax, 0, 0, none⟩).pow = fltMax then noLimit
        else (xs.foldl SC16.lowestStep ⟨fltMax, fltMax, 0, 0, none⟩).pow) ∧
      (SC16.lowestComb xs).phases = (xs.foldl SC16.lowestStep ⟨fltMax, fltMax, 0, 0, none⟩).phases := by
  unfold SC16.lowestComb
  simp only
  refine ⟨?_, ?_, ?_⟩ <;> (repeat' split) <;> first | rfl | simp_all

theorem lowest_proj (v21 : Bool) (xs : List IP) (h : (v21 && xs.any threePhase) = false) :
    (lowestComb v21 xs).cur.l1 = (SC16.lowestComb (xs.map proj)).cur ∧
    (lowestComb v21 xs).pow.l1 = (SC16.lowestComb (xs.map proj)).pow ∧
    (lowestComb v21 xs).phases = (SC16.lowestComb (xs.map proj)).phases ∧
    ((∀ x ∈ xs, LimScalar x) → LimScalar (lowestComb v21 xs)) := by
  obtain ⟨e1, e2, e3⟩ := v16_lowestComb (xs.map proj)
  obtain ⟨f1, f2, f3⟩ := SC16.lowest_fold (xs.map proj) ⟨fltMax, fltMax, 0, 0, none⟩
  obtain ⟨g1, g2, g3⟩ := lowest_fold (lowestPhasesOf xs) xs (start0 (lowestPhasesOf xs))
  rw [lowestComb_eq v21 xs h, e1, e2, e3, f1, f2, f3, SC16.pickLow_fold]
  simp only [replaceMax, List.map_map, g1, g2, g3]
  refine ⟨rfl, rfl, ?_, ?_⟩
  · show (start0 (lowestPhasesOf xs)).phases = _
    simp only [start0, lowestPhasesOf_eq]
    rfl
  · intro hs
    obtain ⟨k1, k2⟩ := lowest_fold_l2 (lowestPhasesOf xs) xs hs (start0 (lowestPhasesOf xs))
    refine ⟨?_, ?_⟩
    · show (if _ = fltMax then noLimit else _) = noLimit
      rw [k1]; exact if_pos rfl
    · show (if _ = fltMax then noLimit else _) = noLimit
      rw [k2]; exact if_pos rfl

theorem convert_proj (unit : RUnit) (dl : Rat) (dp : Int) (v : Rat) (x : IP) (h : LimScalar x) :
    (convert unit dl dp v x).limit = (SC16.convert unit dl dp v (proj x)).limit ∧
    (convert unit dl dp v x).phases = (SC16.convert unit dl dp v (proj x)).phases := by
  obtain ⟨h1, h2⟩ := h
  have hmin : ∀ a b : Rat, min a b = if b < a then b else a := by
    intro a b
    split
    · exact min_eq_right (by linarith)
    · exact min_eq_left (by linarith)
  unfold convert SC16.convert proj
  cases unit <;> by_cases hc : x.cur.l1 = noLimit <;> by_cases hp : x.pow.l1 = noLimit <;>
    simp [both, store, transform, hc, hp, h1, h2, hmin] <;> split <;> simp

theorem v16_convert_congr (unit : RUnit) (dl : Rat) (dp : Int) (v : Rat) (x y : SC16.IP) (h1 : x.cur = y.cur) (h2 : x.pow = y.pow)
    (h3 : x.phases = y.phases) : (SC16.convert unit dl dp v x).limit = (SC16.convert unit dl dp v y).limit ∧
      (SC16.convert unit dl dp v x).phases = (SC16.convert unit dl dp v y).phases := by
  obtain ⟨a, b, c, d, e⟩ := x
  obtain ⟨a', b', c', d', e'⟩ := y
  simp only at h1 h2 h3
  subst h1 h2 h3
  unfold SC16.convert
  by_cases ha : a = noLimit <;> by_cases hb : b = noLimit <;> cases unit <;> simp [ha, hb] <;> split <;> simp

/-- The limits of a constraint list as limits of intermediate periods. -/
theorem convert_lowest (cfg : Config) (v21 : Bool) (unit : RUnit) (dl : Rat) (xs : List IP)
    (h3 : (v21 && xs.any threePhase) = false) (hs : ∀ x ∈ xs, LimScalar x) :
    (convert unit dl cfg.phases cfg.voltage (lowestComb v21 xs)).limit =
      (SC16.convert unit dl cfg.phases cfg.voltage (SC16.lowestComb (xs.map proj))).limit ∧
    (convert unit dl cfg.phases cfg.voltage (lowestComb v21 xs)).phases =
      (SC16.convert unit dl cfg.phases cfg.voltage (SC16.lowestComb (xs.map proj))).phases := by
  obtain ⟨a, b, c, d⟩ := lowest_proj v21 xs h3
  obtain ⟨e, f⟩ := convert_proj unit dl cfg.phases cfg.voltage (lowestComb v21 xs) (d hs)
  rw [e, f]
  exact v16_convert_congr unit dl cfg.phases cfg.voltage _ _ a b c

/-! ## Contents of periods -/

/-- Contents for a deciding profile. -/
def toIP (r : Option (Profile × Period)) : IP := match r with
  | some (p, per) => content p per
  | none => gapIP

/-- Values that occur. -/
structure Good (r : Option (Profile × Period)) : Prop where
  limit : ∀ p per l, r = some (p, per) → per.limit = some l → 0 ≤ l ∧ l ≤ 1000000000000
  discharge : ∀ p per l, r = some (p, per) → per.discharge = some l → -1000000000000 ≤ l ∧ l ≤ 0
  setpoint : ∀ p per l, r = some (p, per) → per.setpoint = some l → -1000000000000 ≤ l ∧ l ≤ 1000000000000
  phases : ∀ p per n, r = some (p, per) → per.phases = some n → 1 ≤ n ∧ n ≤ 3
  scalar : ∀ p per, r = some (p, per) → per.limitL2 = none ∧ per.limitL3 = none ∧ per.dischargeL2 = none ∧ per.dischargeL3 = none ∧
    per.setpointL2 = none ∧ per.setpointL3 = none

theorem Good.none : Good none := ⟨by simp, by simp, by simp, by simp, by simp⟩

theorem inForce_mem {p : Profile} {session : Option Int} {now t : Int} {per : Period} (h : p.inForce session now t = some per) :
    per ∈ p.periods := by
  unfold Profile.inForce at h
  split at h
  · cases h
  · split at h
    · unfold Profile.periodAt at h
      have := List.mem_of_getLast? h
      exact (List.mem_filter.1 this).1
    · cases h

theorem Decides.good {S : Profile → Prop} (hS : ∀ p, S p → p.Physical) {session : Option Int} {now t : Int}
    {r : Option (Profile × Period)} (hd : Decides S session now t r) : Good r := by
  constructor
  · rintro p per l rfl; exact (hS p hd.1).limit per (inForce_mem hd.2.1) l
  · rintro p per l rfl; exact (hS p hd.1).discharge per (inForce_mem hd.2.1) l
  · rintro p per l rfl; exact (hS p hd.1).setpoint per (inForce_mem hd.2.1) l
  · rintro p per n rfl; exact (hS p hd.1).phases per (inForce_mem hd.2.1) n
  · rintro p per rfl; exact (hS p hd.1).scalar per (inForce_mem hd.2.1)

theorem limitValue_eq (p : Profile) (per : Period) : (entryLimit p per).l1 = (limitValue p per).getD noLimit := by
  unfold entryLimit limitValue
  cases per.limit with
  | some x => rfl
  | none => cases per.chargingOnly <;> cases p.unit <;> simp [defaultAmps, defaultWatts]

theorem limitValue_bound {p : Profile} {per : Period} (h : Good (some (p, per))) {l : Rat} (hl : limitValue p per = some l) :
    0 ≤ l ∧ l ≤ 1000000000000 := by
  unfold limitValue at hl
  cases hp : per.limit with
  | some x =>
    rw [hp] at hl
    injection hl with hl
    exact h.limit p per l rfl (by rw [hp, hl])
  | none =>
    rw [hp] at hl
    cases hc : per.chargingOnly with
    | false => simp [hc] at hl
    | true =>
      simp only [hc, if_true] at hl
      injection hl with hl
      cases hu : p.unit <;> rw [hu] at hl <;> simp at hl <;> rw [← hl] <;> norm_num

theorem toIP_scalar {r : Option (Profile × Period)} (h : Good r) : Scalar (toIP r) := by
  rcases r with _ | ⟨p, per⟩
  · exact ⟨⟨rfl, rfl⟩, ⟨rfl, rfl⟩, ⟨rfl, rfl⟩, ⟨rfl, rfl⟩, ⟨rfl, rfl⟩, ⟨rfl, rfl⟩⟩
  · obtain ⟨a, b, c, d, e, f⟩ := h.scalar p per rfl
    simp only [toIP]
    unfold content
    cases p.unit <;> constructor <;> simp [gapIP, entryLimit, entryDischarge, entrySetpoint, PL.all, a, b, c, d, e, f]

theorem phases_toIP (r : Option (Profile × Period)) : (toIP r).phases = r.bind (fun x => x.2.phases) := by
  rcases r with _ | ⟨p, per⟩
  · rfl
  · simp only [toIP, Option.bind_some]; unfold content; cases p.unit <;> rfl

/-- The limits of an intermediate period, from what the profile says. -/
theorem limits_toIP {r : Option (Profile × Period)} (h : Good r) : SC16.limits (proj (toIP r)) =
    (r.toList.filterMap fun x => (limitValue x.1 x.2).map fun l => (⟨x.1.unit, l, x.2.phases⟩ : Limit)) := by
  rcases r with _ | ⟨p, per⟩
  · simp [toIP, gapIP, PL.all, proj, SC16.limits, noLimit_neg]
  · have e := limitValue_eq p per
    have b := @limitValue_bound p per h
    simp only [toIP, proj, Option.toList_some, List.filterMap_cons, List.filterMap_nil]
    unfold content SC16.limits
    cases hl : limitValue p per with
    | none =>
      rw [hl] at e
      cases p.unit <;> simp [e, gapIP, PL.all, noLimit_neg]
    | some l =>
      rw [hl] at e
      have := (b hl).1
      cases p.unit <;> simp [e, gapIP, PL.all, noLimit_neg, this]

theorem ok_toIP {r : Option (Profile × Period)} (h : Good r) : (proj (toIP r)).Ok := by
  rcases r with _ | ⟨p, per⟩
  · exact ⟨Or.inl rfl, Or.inl rfl⟩
  · have e := limitValue_eq p per
    have key : (entryLimit p per).l1 = noLimit ∨ (0 ≤ (entryLimit p per).l1 ∧ (entryLimit p per).l1 < fltMax) := by
      cases hl : limitValue p per with
      | none => left; rw [e, hl]; rfl
      | some l =>
        right
        rw [e, hl]
        obtain ⟨a, b⟩ := limitValue_bound h hl
        exact ⟨a, by simp only [Option.getD_some]; linarith [fltMax_big]⟩
    simp only [toIP, proj]
    unfold content
    cases p.unit
    · exact ⟨key, Or.inl rfl⟩
    · exact ⟨Or.inl rfl, key⟩

theorem fltMax_ne {x : Rat} (h1 : -1000000000000 ≤ x) (h2 : x ≤ 1000000000000) : x ≠ fltMax ∧ x ≠ -fltMax := by
  have := fltMax_big
  refine ⟨?_, ?_⟩ <;> intro h <;> linarith

/-- A period differs from the gap exactly if it specifies something. -/
theorem differs_iff {r : Option (Profile × Period)} (h : Good r) :
    ((toIP r).cur ≠ gapIP.cur ∨ (toIP r).pow ≠ gapIP.pow ∨ (toIP r).disCur ≠ gapIP.disCur ∨ (toIP r).disPow ≠ gapIP.disPow ∨
       (toIP r).setCur ≠ gapIP.setCur ∨ (toIP r).setPow ≠ gapIP.setPow) ↔ ∃ x, r = some x ∧ specifies x = true := by
  rcases r with _ | ⟨p, per⟩
  · simp [toIP]
  · obtain ⟨a1, a2, a3, a4, a5, a6⟩ := h.scalar p per rfl
    have e := limitValue_eq p per
    have k1 : entryLimit p per = PL.all noLimit ↔ limitValue p per = none := by
      have : entryLimit p per = ⟨(entryLimit p per).l1, noLimit, noLimit⟩ := by simp [entryLimit, a1, a2]
      rw [this, e]
      cases hl : limitValue p per with
      | none => simp [PL.all]
      | some l =>
        have b := limitValue_bound h hl
        simp only [PL.all, Option.getD_some, PL.mk.injEq, and_true, reduceCtorEq, iff_false]
        intro hc; rw [hc] at b; exact noLimit_neg b.1
    have k2 : entryDischarge per = PL.all noDischarge ↔ per.discharge = none := by
      unfold entryDischarge
      rw [a3, a4]
      cases hl : per.discharge with
      | none => simp [PL.all]
      | some l =>
        have b := h.discharge p per l rfl hl
        have := fltMax_ne b.1 (by linarith [b.2])
        simp [PL.all, noDischarge, this.2]
    have k3 : entrySetpoint per = PL.all noSetpoint ↔ per.setpoint = none := by
      unfold entrySetpoint
      rw [a5, a6]
      cases hl : per.setpoint with
      | none => simp [PL.all]
      | some l =>
        have b := h.setpoint p per l rfl hl
        have := fltMax_ne b.1 b.2
        simp [PL.all, noSetpoint, this.1]
    have k1' : entryLimit p per ≠ PL.all noLimit ↔ (limitValue p per).isSome = true := by
      rw [ne_eq, k1]; cases limitValue p per <;> simp
    have k2' : entryDischarge per ≠ PL.all noDischarge ↔ per.discharge.isSome = true := by
      rw [ne_eq, k2]; cases per.discharge <;> simp
    have k3' : entrySetpoint per ≠ PL.all noSetpoint ↔ per.setpoint.isSome = true := by
      rw [ne_eq, k3]; cases per.setpoint <;> simp
    simp only [toIP]
    unfold content
    simp only [Option.some.injEq, exists_eq_left', specifies, Bool.or_eq_true]
    cases p.unit
    · show (entryLimit p per ≠ PL.all noLimit ∨ _ ≠ gapIP.pow ∨ entryDischarge per ≠ PL.all noDischarge ∨ _ ≠ gapIP.disPow ∨
        entrySetpoint per ≠ PL.all noSetpoint ∨ _ ≠ gapIP.setPow) ↔ _
      rw [k1', k2', k3']
      simp only [gapIP, ne_eq, not_true_eq_false, false_or, or_false]
      tauto
    · show (_ ≠ gapIP.cur ∨ entryLimit p per ≠ PL.all noLimit ∨ _ ≠ gapIP.disCur ∨ entryDischarge per ≠ PL.all noDischarge ∨
        _ ≠ gapIP.setCur ∨ entrySetpoint per ≠ PL.all noSetpoint) ↔ _
      rw [k1', k2', k3']
      simp only [gapIP, ne_eq, not_true_eq_false, false_or, or_false]
      tauto

theorem txComb_pair (a b : Option (Profile × Period)) (ha : Good a) (hb : Good b) :
    txComb [toIP a, toIP b] = toIP ((a.toList ++ b.toList).find? specifies) := by
  have one : ∀ r, Good r → txComb [toIP r] = toIP (r.toList.find? specifies) := by
    intro r hr
    simp only [txComb]
    rcases r with _ | x
    · rw [if_neg (by rw [differs_iff hr]; simp)]; rfl
    · by_cases hs : specifies x = true
      · rw [if_pos (by rw [differs_iff hr]; exact ⟨x, rfl, hs⟩)]
        simp [hs]
      · rw [if_neg (by rw [differs_iff hr]; simp [hs])]
        simp [hs, toIP]
  have step : txComb [toIP a, toIP b] = if (∃ x, a = some x ∧ specifies x = true) then toIP a else txComb [toIP b] := by
    rw [txComb]
    simp only [differs_iff ha]
  rw [step, one b hb]
  rcases a with _ | x
  · simp
  · by_cases hs : specifies x = true
    · simp [hs]
    · simp [hs]

end Verif.SC2
