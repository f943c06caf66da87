import Verif.Meter.Model
import Verif.Meter.Theorems
import Mathlib.Algebra.Order.Ring.Rat
import Mathlib.Algebra.Order.Field.Basic
import Mathlib.Tactic.Linarith
import Mathlib.Data.Rat.Floor

/-!
Triggers of the EVSE: prices (C104) and MaxEnergyOnInvalidId (C105).
-/

namespace Verif.Met

/-! ### C104: energy -/

/-- The register (Wh) has reached the energy (kWh). -/
def Reached (t : Rat) (r : Option Rat) : Prop := ∃ wh, r = some wh ∧ t * 1000 ≤ wh

theorem register_apply (m : Meter) (s : Sample) (h : register m = some s) : (apply m [4, 2] true).samples ≠ [] := by
  have hm := List.mem_of_find?_eq_some h
  have hp := List.find?_some h
  simp only [Bool.and_eq_true, beq_iff_eq] at hp
  intro he
  have : s ∈ (apply m [4, 2] true).samples :=
    (mem_apply m [4, 2] true s).mpr ⟨s, hm, ⟨4, by simp, hp.1⟩, by simp⟩
  rw [he] at this; simp at this

theorem energyTrigger_not (p : Pricing) (t : Rat) (h1 : p.energy = some t) (h2 : p.send = true) (r : Option Rat)
    (hr : ¬ Reached t r) (m : Meter) : energyTrigger p r m = (p, []) := by
  unfold energyTrigger
  simp only [h1, h2, Bool.not_true, Bool.false_eq_true, if_false]
  cases r with
  | none => rfl
  | some wh =>
    have : ¬ wh ≥ t * 1000 := fun h => hr ⟨wh, rfl, h⟩
    simp only [this, if_false]

theorem energyTrigger_yes (p : Pricing) (t : Rat) (h1 : p.energy = some t) (h2 : p.send = true) (r : Option Rat)
    (hr : Reached t r) (m : Meter) (hm : registerWh m = some r) :
    energyTrigger p r m = ({ p with energy := none }, [setContext .other (apply m [4, 2] true)]) := by
  obtain ⟨wh, rfl, hw⟩ := hr
  have hne : (apply m [4, 2] true).samples.isEmpty = false := by
    unfold registerWh at hm
    cases hreg : register m with
    | none => simp [hreg] at hm
    | some s => simpa using register_apply m s hreg
  unfold energyTrigger
  have : wh ≥ t * 1000 := hw
  simp only [h1, h2, Bool.not_true, Bool.false_eq_true, if_false, this, if_true, hne]

theorem powerTrigger_frame (p : Pricing) (h2 : p.send = true) (b : Bool) (m : Meter) :
    (powerTrigger p b m).1.energy = p.energy ∧ (powerTrigger p b m).1.send = true ∧ (powerTrigger p b m).1.power = p.power ∧
    (b = true → (powerTrigger p b m).2 = []) := by
  unfold powerTrigger
  cases hp : p.power with
  | none => simp [h2, hp]
  | some t =>
    cases hw : power m with
    | none => simp [h2, hp]
    | some w =>
      simp only [h2, Bool.not_true, Bool.false_eq_true, if_false]
      cases hl : p.last with
      | none => simp [h2, hp]
      | some l =>
        simp only
        split
        · simp [h2, hp]
        · simp [h2, hp]

/-- C104: as soon as the register has reached the energy the CSMS asked for, exactly one message with register and power is sent for that meter
value, whatever else is to be reported. -/
theorem C104_energy (t : Rat) (pre : List (Option Rat × Meter)) : ∀ (p : Pricing), p.send = true → p.energy = some t →
    (∀ x ∈ pre, ¬ Reached t x.1) → ∀ (r : Option Rat) (m : Meter) (post : List (Option Rat × Meter)), Reached t r → registerWh m = some r →
    (pricingRun p (pre ++ (r, m) :: post))[pre.length]? = some [setContext .other (apply m [4, 2] true)] ∧
    PartOf m (apply m [4, 2] true) [4, 2] true := by
  induction pre with
  | nil =>
    intro p hs he _ r m post hr hm
    have h1 := energyTrigger_yes p t he hs r hr m hm
    have h2 := (powerTrigger_frame { p with energy := none } hs true m).2.2.2 rfl
    refine ⟨by simp [pricingRun, pricing, h1, h2], apply_partOf _ _ _ ?_⟩
    rw [hasAny_iff]
    obtain ⟨wh, rfl, _⟩ := hr
    unfold registerWh at hm
    cases hreg : register m with
    | none => simp [hreg] at hm
    | some s =>
      have hp := List.find?_some hreg
      simp only [Bool.and_eq_true, beq_iff_eq] at hp
      exact ⟨s, List.mem_of_find?_eq_some hreg, 4, by simp, hp.1⟩
  | cons x rest ih =>
    intro p hs he hpre r m post hr hm
    obtain ⟨r0, m0⟩ := x
    have h1 := energyTrigger_not p t he hs r0 (hpre _ (List.mem_cons_self ..)) m0
    have hf := powerTrigger_frame p hs false m0
    have h := ih (pricing p r0 m0).1 (by simpa [pricing, h1] using hf.2.1) (by simpa [pricing, h1] using hf.1.trans he)
      (fun x hx => hpre x (List.mem_cons_of_mem _ hx)) r m post hr hm
    simpa [pricingRun] using h

/-- Without triggers nothing is sent. -/
theorem pricingRun_none (l : List (Option Rat × Meter)) : ∀ (p : Pricing), p.energy = none → p.power = none →
    pricingRun p l = List.replicate l.length [] := by
  induction l with
  | nil => intro p _ _; rfl
  | cons x r ih =>
    intro p h1 h2
    obtain ⟨a, m⟩ := x
    have h : pricing p a m = (p, []) := by simp [pricing, energyTrigger, powerTrigger, h1, h2]
    rw [pricingRun, h, ih p h1 h2]; rfl

/-- C104: if only an energy was asked for, this is the only message: nothing before, nothing after. -/
theorem C104_energy_once (t : Rat) (pre : List (Option Rat × Meter)) : ∀ (p : Pricing), p.send = true → p.energy = some t → p.power = none →
    (∀ x ∈ pre, ¬ Reached t x.1) → ∀ (r : Option Rat) (m : Meter) (post : List (Option Rat × Meter)), Reached t r → registerWh m = some r →
    pricingRun p (pre ++ (r, m) :: post) =
      List.replicate pre.length [] ++ [setContext .other (apply m [4, 2] true)] :: List.replicate post.length [] := by
  induction pre with
  | nil =>
    intro p hs he hp _ r m post hr hm
    have h1 := energyTrigger_yes p t he hs r hr m hm
    have h : pricing p r m = ({ p with energy := none }, [setContext .other (apply m [4, 2] true)]) := by
      simp [pricing, h1, powerTrigger, hp]
    simp only [List.nil_append, List.length_nil, List.replicate_zero, pricingRun, h]
    rw [pricingRun_none post { p with energy := none } rfl hp]
  | cons x rest ih =>
    intro p hs he hp hpre r m post hr hm
    obtain ⟨r0, m0⟩ := x
    have h1 := energyTrigger_not p t he hs r0 (hpre _ (List.mem_cons_self ..)) m0
    have h : pricing p r0 m0 = (p, []) := by simp [pricing, h1, powerTrigger, hp]
    simp only [List.cons_append, pricingRun, h, List.length_cons, List.replicate_succ]
    rw [ih p hs he hp (fun x hx => hpre x (List.mem_cons_of_mem _ hx)) r m post hr hm]

/-- The register 4 with a value in kWh. -/
def exKwh (x : Rat) : Meter := ⟨0, [{ value := x, measurand := some 4, unit := some { unit := some 1 } }]⟩

/-- Non-vacuity of `C104_energy` and `C104_energy_once`: 10 kWh. -/
example : pricingRun { energy := some 10, send := true } ([9, 10, 11].map (fun x => (some (x * 1000), exKwh x))) =
      [[], [setContext .other (exKwh 10)], []] ∧ registerWh (exKwh 10) = some (some 10000) := by decide +kernel

/-! ### C104: power -/

/-- The last power reported was below the threshold: the next message is due for a reading of 105 % of it or more; if above, of 95 % or less. -/
def Crossed (t l : Rat) (m : Meter) : Prop :=
  ∃ w, power m = some w ∧ ((l < t ∧ t * (105 / 100) ≤ w / 1000) ∨ (t < l ∧ w / 1000 ≤ t * (95 / 100)))

theorem powerTrigger_not (p : Pricing) (t l : Rat) (hp : p.power = some t) (hs : p.send = true) (hl : p.last = some l) (m : Meter)
    (hn : ¬ Crossed t l m) (b : Bool) : powerTrigger p b m = (p, []) := by
  unfold powerTrigger
  cases hw : power m with
  | none => simp [hp]
  | some w =>
    simp only [hp, hs, Bool.not_true, Bool.false_eq_true, if_false, hl]
    rw [if_neg]
    rintro (⟨h1, h2⟩ | ⟨h1, h2⟩)
    · exact hn ⟨w, hw, .inl ⟨h1, by linarith⟩⟩
    · exact hn ⟨w, hw, .inr ⟨h1, by linarith⟩⟩

/-- C104: after a message with the power `l` (kW) the next one is sent exactly for the first meter value that has crossed the threshold by 5 %, in
the direction away from `l`. -/
theorem C104_power_partial (t l : Rat) (pre : List (Option Rat × Meter)) : ∀ (p : Pricing), p.send = true → p.energy = none → p.power = some t →
    p.last = some l → (∀ x ∈ pre, ¬ Crossed t l x.2) → ∀ (r : Option Rat) (m : Meter) (w : Rat) (post : List (Option Rat × Meter)),
    Crossed t l m → power m = some w →
    pricingRun p (pre ++ (r, m) :: post) =
      List.replicate pre.length [] ++ [setContext .other m] :: pricingRun { p with last := some (w / 1000) } post := by
  induction pre with
  | nil =>
    intro p hs he hp hl _ r m w post hc hw
    obtain ⟨w', hw', hc⟩ := hc
    rw [hw] at hw'; injection hw' with hw'; subst hw'
    have h : powerTrigger p false m = ({ p with last := some (w / 1000) }, [setContext .other m]) := by
      unfold powerTrigger
      simp only [hp, hw, hs, Bool.not_true, Bool.false_eq_true, if_false, hl]
      rw [if_pos]
      rcases hc with ⟨h1, h2⟩ | ⟨h1, h2⟩
      · exact .inl ⟨h1, by linarith⟩
      · exact .inr ⟨h1, by linarith⟩
    have h' : pricing p r m = ({ p with last := some (w / 1000) }, [setContext .other m]) := by
      simp [pricing, energyTrigger, he, h]
    simp [pricingRun, h']
  | cons x rest ih =>
    intro p hs he hp hl hpre r m w post hc hw
    obtain ⟨r0, m0⟩ := x
    have h1 := powerTrigger_not p t l hp hs hl m0 (hpre _ (List.mem_cons_self ..)) false
    have h : pricing p r0 m0 = (p, []) := by simp [pricing, energyTrigger, he, h1]
    simp only [List.cons_append, pricingRun, h, List.length_cons, List.replicate_succ]
    rw [ih p hs he hp hl (fun x hx => hpre x (List.mem_cons_of_mem _ hx)) r m w post hc hw]

/-- C104: the first meter value with a power is reported, and then those that cross the threshold. -/
theorem C104_power_first (t : Rat) (p : Pricing) (hs : p.send = true) (he : p.energy = none) (hp : p.power = some t) (hl : p.last = none)
    (r : Option Rat) (m : Meter) (post : List (Option Rat × Meter)) :
    (power m = none → pricingRun p ((r, m) :: post) = [] :: pricingRun p post) ∧
    (∀ w, power m = some w →
      pricingRun p ((r, m) :: post) = [setContext .other m] :: pricingRun { p with last := some (w / 1000) } post) := by
  constructor
  · intro hw
    have : pricing p r m = (p, []) := by simp [pricing, energyTrigger, powerTrigger, he, hp, hw]
    simp [pricingRun, this]
  · intro w hw
    have : pricing p r m = ({ p with last := some (w / 1000) }, [setContext .other m]) := by
      simp [pricing, energyTrigger, powerTrigger, he, hp, hw, hs, hl]
    simp [pricingRun, this]

/-- A power in W. -/
def exW (x : Rat) : Meter := ⟨0, [{ value := x, measurand := some 2 }]⟩

/-- Non-vacuity of `C104_power_partial` and `C104_power_first`: a threshold of 10 kW. -/
example : pricingRun { power := some 10, send := true } ([5000, 10400, 10500, 9600, 9500].map (fun x => (none, exW x))) =
    [[setContext .other (exW 5000)], [], [setContext .other (exW 10500)], [], [setContext .other (exW 9500)]] := by decide +kernel

/-- C104 violated: if the power last reported was exactly the threshold, no change of the power is reported any more. -/
theorem C104_equal_violated (t : Rat) (l : List (Option Rat × Meter)) : ∀ (p : Pricing), p.send = true → p.energy = none → p.power = some t →
    p.last = some t → pricingRun p l = List.replicate l.length [] := by
  induction l with
  | nil => intro p _ _ _ _; rfl
  | cons x rest ih =>
    intro p hs he hp hl
    obtain ⟨r0, m0⟩ := x
    have h1 := powerTrigger_not p t t hp hs hl m0 (by rintro ⟨w, _, ⟨h, _⟩ | ⟨h, _⟩⟩ <;> exact absurd h (lt_irrefl t)) false
    have h : pricing p r0 m0 = (p, []) := by simp [pricing, energyTrigger, he, h1]
    simp only [pricingRun, h, List.length_cons, List.replicate_succ]
    rw [ih p hs he hp hl]

/-- The state of `C104_equal_violated` is reached by a meter value of exactly the threshold. -/
example : (pricing { power := some 10, send := true } none (exW 10000)).1 = { power := some 10, send := true, last := some 10 } := by decide +kernel

/-- C104 violated: the unit of the power is not looked at: a rise from 5 kW to 50 kW is not reported if the values are in kW. -/
theorem C104_unit_violated (unit : UnitOf) :
    pricingRun { power := some 10, send := true, last := some 5 } [(none, ⟨0, [{ value := 50, measurand := some 2, unit := some unit }]⟩)] = [[]] := by
  simp only [pricingRun, pricing, energyTrigger, powerTrigger, power]
  simp
  norm_num

/-! ### C105 -/

/-- The energy charged (Wh) has reached the maximum, rounded. -/
def Exceeded (mx : Int) (start : Rat) (r : Option Rat) : Prop := ∃ x, r = some x ∧ (mx : Rat) - 1 / 2 ≤ x - start

theorem lround_ge (x : Rat) (mx : Int) (h : 0 < mx) : lround x ≥ mx ↔ (mx : Rat) - 1 / 2 ≤ x := by
  have hq : (1 : Rat) ≤ mx := by exact_mod_cast h
  unfold lround
  by_cases hx : x ≥ 0
  · rw [if_pos hx]
    show mx ≤ (x + 1 / 2).floor ↔ _
    rw [Rat.le_floor_iff]
    constructor <;> intro h <;> linarith
  · rw [if_neg hx]
    have hx' : x < 0 := lt_of_not_ge hx
    constructor
    · intro h1
      have h2 : (x - 1 / 2).ceil ≤ 0 := by
        rw [Rat.ceil_le_iff]; push_cast; linarith
      omega
    · intro h1; linarith

/-- C105: while the token of a running transaction is not accepted, charging is paused exactly at the first reading with at least
MaxEnergyOnInvalidId charged (rounded to Wh), and once only. -/
theorem C105_partial (mx : Int) (hmx : 0 < mx) (start : Rat) (l : List (Option Rat)) (i : Nat) :
    (checkRun (some mx) { check := true, start := some start } l)[i]? = some true ↔
      (∃ r, l[i]? = some r ∧ Exceeded mx start r) ∧ ∀ j < i, ∀ r, l[j]? = some r → ¬ Exceeded mx start r := by
  have hoff : ∀ (l : List (Option Rat)) (i : Nat), (checkRun (some mx) { check := false, start := some start } l)[i]? ≠ some true := by
    intro l
    induction l with
    | nil => intro i; simp [checkRun]
    | cons r rest ih =>
      intro i
      have : checkMax (some mx) { check := false, start := some start } r = ({ check := false, start := some start }, false) := by
        unfold checkMax; cases r <;> rfl
      rw [checkRun, this]
      cases i with
      | zero => simp
      | succ i => simpa using ih i
  induction l generalizing i with
  | nil => simp [checkRun]
  | cons r rest ih =>
    have hc : ∀ b, (checkMax (some mx) { check := true, start := some start } r).2 = b ↔ (b = true ↔ Exceeded mx start r) := by
      intro b
      unfold checkMax
      cases r with
      | none => cases b <;> simp [Exceeded]
      | some x =>
        have he : Exceeded mx start (some x) ↔ lround (x - start) ≥ mx := by
          rw [lround_ge _ _ hmx]; simp [Exceeded]
        simp only [he]
        by_cases hg : lround (x - start) ≥ mx <;> cases b <;> simp [hg]
    by_cases hx : Exceeded mx start r
    · have h2 := (hc true).mpr (by simp [hx])
      have h1 : (checkMax (some mx) { check := true, start := some start } r).1 = { check := false, start := some start } := by
        unfold checkMax at h2 ⊢
        cases r with
        | none => simp at h2
        | some x =>
          by_cases hg : lround (x - start) ≥ mx
          · simp [hg]
          · simp [hg] at h2
      rw [checkRun, h1, h2]
      cases i with
      | zero => simp [hx]
      | succ i =>
        simp only [List.getElem?_cons_succ]
        constructor
        · intro h; exact absurd h (hoff rest i)
        · rintro ⟨_, h⟩; exact absurd hx (h 0 (by omega) r rfl)
    · have h2 := (hc false).mpr (by simp [hx])
      have h1 : (checkMax (some mx) { check := true, start := some start } r).1 = { check := true, start := some start } := by
        unfold checkMax at h2 ⊢
        cases r with
        | none => rfl
        | some x =>
          by_cases hg : lround (x - start) ≥ mx
          · simp [hg] at h2
          · simp [hg]
      rw [checkRun, h1, h2]
      cases i with
      | zero => simp [hx]
      | succ i =>
        simp only [List.getElem?_cons_succ]
        refine (ih i).trans ?_
        constructor
        · rintro ⟨ha, hb⟩
          refine ⟨ha, ?_⟩
          intro j hj r' hr'
          cases j with
          | zero => simp at hr'; subst hr'; exact hx
          | succ j => exact hb j (by omega) r' (by simpa using hr')
        · rintro ⟨ha, hb⟩
          exact ⟨ha, fun j hj r' hr' => hb (j + 1) (by omega) r' (by simpa using hr')⟩

/-- Non-vacuity of `C105_partial`: 500 Wh. -/
example : checkRun (some 500) { check := true, start := some 1000 } [some 1200, none, some 1500, some 1600] = [false, false, true, false] := by
  decide +kernel

/-- C105 violated: if there was no register value at the start of the transaction, charging is never paused, whatever is charged. -/
theorem C105_violated (mx : Option Int) (c : Bool) (l : List (Option Rat)) : ∀ b ∈ checkRun mx { check := c, start := none } l, b = false := by
  induction l with
  | nil => simp [checkRun]
  | cons r rest ih =>
    have : checkMax mx { check := c, start := none } r = ({ check := c, start := none }, false) := by
      unfold checkMax; cases mx <;> cases c <;> cases r <;> rfl
    rw [checkRun, this]
    intro b hb
    rcases List.mem_cons.mp hb with h | h
    · exact h
    · exact ih b h

end Verif.Met
