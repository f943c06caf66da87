import Verif.ProfileStore.Spec
import Mathlib.Algebra.Order.Ring.Rat
import Mathlib.Tactic.Linarith
import Mathlib.Tactic.Tauto

/-! # Validation decides acceptability -/

set_option linter.unusedSimpArgs false
set_option linter.unusedVariables false

namespace Verif.PS
open Verif.SC16 (RUnit)

theorem firstFailure_valid (l : List (Bool × Result)) (h : ∀ x ∈ l, x.2 ≠ .valid) :
    firstFailure l = .valid ↔ ∀ x ∈ l, x.1 = false := by
  induction l with
  | nil => simp [firstFailure]
  | cons a rest ih =>
    obtain ⟨b, r⟩ := a
    have hr : r ≠ .valid := h (b, r) (by simp)
    have ih := ih (fun x hx => h x (by simp [hx]))
    cases b with
    | true => simp [firstFailure, hr]
    | false => simp [firstFailure, ih]

theorem andThen_iff (r k : Result) : r.andThen k = .valid ↔ r = .valid ∧ k = .valid := by
  cases r <;> simp [Result.andThen]

theorem modes_iff (u : Purpose) (m : OpMode) : (modesFor u).contains m = true ↔ ModeAllowed u m := by
  constructor
  · intro h
    cases u <;> cases m <;> first
      | exact .chargingOnly _
      | exact .tx _
      | exact .txDefault _
      | exact .external
      | exact .externalSetpoint
      | exact .localGeneration
      | (exfalso; revert h; decide)
  · intro h
    cases h <;> (try rfl) <;> (cases ‹_› <;> rfl)

theorem limits_iff (x : Period) : limitsOk x = true ↔ LimitsFit x := by
  have key : ∀ (v : Vals), (v.l1.isSome || v.l2.isSome || v.l3.isSome) = false ↔ v.Absent := by
    intro v; obtain ⟨a, b, c⟩ := v
    cases a <;> cases b <;> cases c <;> simp [Vals.Absent]
  have req : ∀ (v : Vals), v.l1.isNone = false ↔ v.Required := by
    intro v; obtain ⟨a, b, c⟩ := v
    cases a <;> simp [Vals.Required]
  unfold limitsOk LimitsFit
  rcases hm : x.mode with _ | m
  · simp [limitsFor, limitOk, ← key, ← req]; tauto
  · cases m <;> simp [limitsFor, limitOk, ← key, ← req] <;> (try tauto)

theorem signs_iff (x : Period) : signsOk x = true ↔ SameSign x.setpoint := by
  unfold signsOk SameSign
  generalize x.setpoint = v
  obtain ⟨a, b, c⟩ := v
  cases a with
  | none => simp
  | some a => cases b <;> cases c <;> simp <;> grind

theorem supply_iff (env : Env) (evse : Int) (h : 0 ≤ evse ∧ evse ≤ (env.evses.length : Int)) (pt : PhaseType) :
    Supply env evse pt ↔ env.phaseType evse = pt := by
  unfold Env.phaseType Env.evse?
  by_cases h0 : evse = 0
  · subst h0
    simp only [Int.le_refl, if_true]
    constructor
    · intro hs
      generalize he : (0 : Int) = e0 at hs
      cases hs with
      | evse k e hk => omega
      | stationAC h => simp [h]
      | stationDC h => simp [h]
      | stationUnknown h0 h1 h3 => simp [h0, h1, h3]
    · intro hp
      split at hp
      · subst hp; exact .stationAC (by assumption)
      · split at hp
        · subst hp; exact .stationDC (by assumption)
        · subst hp
          rename_i h1 h2
          exact .stationUnknown h2 (fun h => h1 (.inl h)) (fun h => h1 (.inr h))
  · have hpos : ¬ evse ≤ 0 := by omega
    obtain ⟨k, rfl⟩ : ∃ k : Nat, evse = (k : Int) + 1 := ⟨(evse - 1).toNat, by omega⟩
    have hk : k < env.evses.length := by omega
    have e1 : ((k : Int) + 1 - 1).toNat = k := by omega
    simp only [hpos, if_false, e1, List.getElem?_eq_getElem hk]
    constructor
    · intro hs
      generalize he : ((k : Int) + 1) = e0 at hs
      cases hs with
      | evse k' e hk' =>
        have : k = k' := by omega
        subst this
        rw [List.getElem?_eq_getElem hk] at hk'
        simpa using congrArg (Option.map EvseInfo.phaseType) hk'
      | stationAC h => omega
      | stationDC h => omega
      | stationUnknown h0 h1 h3 => omega
    · intro hp
      subst hp
      exact .evse k _ (List.getElem?_eq_getElem hk)

theorem dcControl_iff (env : Env) (evse : Int) (h : 0 ≤ evse ∧ evse ≤ (env.evses.length : Int)) :
    env.dcControl evse = true ↔ PhaseControl env evse := by
  unfold Env.dcControl Env.evse? PhaseControl
  by_cases h0 : evse = 0
  · subst h0
    simp only [Int.le_refl, if_true, List.all_eq_true]
    constructor
    · intro hall k e hk _
      exact hall e (List.mem_of_getElem? hk)
    · intro hall e he
      obtain ⟨k, hk, hke⟩ := List.getElem_of_mem he
      exact hall k e (by rw [List.getElem?_eq_getElem hk, hke]) (by simp)
  · have hpos : ¬ evse ≤ 0 := by omega
    obtain ⟨k, rfl⟩ : ∃ k : Nat, evse = (k : Int) + 1 := ⟨(evse - 1).toNat, by omega⟩
    have hk : k < env.evses.length := by omega
    have e1 : ((k : Int) + 1 - 1).toNat = k := by omega
    simp only [hpos, if_false, e1, List.getElem?_eq_getElem hk]
    constructor
    · intro hc k' e hk' hor
      have : k' = k := by omega
      subst this
      rw [List.getElem?_eq_getElem hk] at hk'
      injection hk' with hk'
      rw [← hk']; exact hc
    · intro hall
      exact hall k _ (List.getElem?_eq_getElem hk) (.inr rfl)

theorem rules21_iff (env : Env) (p : Profile) (unit : RUnit) (x : Period) :
    PeriodRules21 env p.purpose unit x ↔
      ((modesFor p.purpose).contains (x.mode.getD .chargingOnly) = true ∧
        ¬ (x.mode.getD .chargingOnly = .localFrequency ∧ unit = .A) ∧ ¬ (x.sleep.getD false = true ∧ env.evseSleep = false) ∧
        limitsOk x = true ∧
        ¬ (x.mode.getD .chargingOnly = .localFrequency ∧ (x.curve.all (fun n => decide (n < 2)) = true ∨ x.baseline = false)) ∧
        signsOk x = true) := by
  have hm : x.mode.getD .chargingOnly = .localFrequency ↔ x.mode = some .localFrequency := by
    cases x.mode with
    | none => simp
    | some m => simp
  rw [modes_iff, limits_iff, signs_iff, hm]
  constructor
  · rintro ⟨h1, h2, h3, h4, h5, h6⟩
    refine ⟨h1, ?_, ?_, h4, ?_, h6⟩
    · rintro ⟨a, b⟩; have := h2 a; rw [b] at this; cases this
    · rintro ⟨a, b⟩
      have : x.sleep = some true := by
        cases hx : x.sleep with
        | none => simp [hx] at a
        | some y => simp [hx] at a; simp [a]
      rw [h3 this] at b; cases b
    · rintro ⟨a, b⟩
      obtain ⟨⟨n, hn, hn2⟩, hb⟩ := h5 a
      rw [hn, hb] at b
      simp at b; omega
  · rintro ⟨h1, h2, h3, h4, h5, h6⟩
    refine ⟨h1, ?_, ?_, h4, ?_, h6⟩
    · intro a
      cases unit with
      | A => exact absurd ⟨a, rfl⟩ h2
      | W => rfl
    · intro a
      rw [a] at h3
      simpa using h3
    · intro a
      have h5 := fun h => h5 ⟨a, h⟩
      cases hc : x.curve with
      | none => simp [hc] at h5
      | some n =>
        simp [hc] at h5
        exact ⟨⟨n, rfl, by omega⟩, h5.2⟩

theorem checkPeriod_iff (env : Env) (evse : Int) (h : 0 ≤ evse ∧ evse ≤ (env.evses.length : Int)) (p : Profile) (unit : RUnit)
    (first : Bool) (next : Option Int) (x : Period) :
    checkPeriod env evse p unit first next x = .valid ↔
      PeriodRules env evse p.purpose unit x ∧ (first = true → x.start = 0) ∧ (∀ n, next = some n → x.start < n) := by
  have hp : p.purpose = .priority → x.mode.getD .chargingOnly ≠ .chargingOnly →
      (modesFor p.purpose).contains (x.mode.getD .chargingOnly) = false := by
    intro hp hm
    rw [hp]
    cases hh : x.mode.getD .chargingOnly <;> first | rfl | exact absurd hh hm
  unfold checkPeriod
  rw [firstFailure_valid _ (by simp)]
  constructor
  · intro hall
    simp only [List.forall_mem_cons, List.forall_mem_nil, and_true] at hall
    obtain ⟨c1, c2, c3, c4, c5, c6, c7, c8, c9, c10, c11, c12, c13, c14, _⟩ := hall
    refine ⟨⟨?_, ?_, ?_, ?_⟩, ?_, ?_⟩
    · intro hu
      have hs : x.phaseToUse.isSome = true := by cases hx : x.phaseToUse <;> simp_all
      simp [hs] at c1 c2
      exact ⟨c1, c2⟩
    · intro hdc
      rw [supply_iff env evse h] at hdc
      simp [hdc] at c5 c6
      by_cases hv : env.v21 = true
      · rw [← dcControl_iff env evse h]
        cases hph : x.phases <;> cases hpu : x.phaseToUse <;> simp_all
      · left
        cases hph : x.phases <;> cases hpu : x.phaseToUse <;> simp_all
    · intro hac n hn
      rw [supply_iff env evse h] at hac
      simp [hac, hn] at c7
      exact c7
    · intro hv
      rw [rules21_iff]
      simp [hv] at c9 c10 c11 c12 c14
      refine ⟨by simpa using c9, fun ⟨a, b⟩ => c10 a b, ?_, c12, ?_, c14⟩
      · rintro ⟨a, b⟩; simp_all
      · rintro ⟨a, b⟩
        rcases b with b | b <;> simp only [hv, a, b] at c13 <;> simp at c13
    · intro hf; simp [hf] at c3; exact c3
    · intro n hn; simp [hn] at c4; exact c4
  · rintro ⟨⟨r1, r2, r3, r4⟩, rf, rn⟩
    rw [supply_iff env evse h] at r2 r3
    simp only [List.forall_mem_cons, List.forall_mem_nil, and_true]
    have r4' := fun hv => (rules21_iff env p unit x).1 (r4 hv)
    refine ⟨?_, ?_, ?_, ?_, ?_, ?_, ?_, ?_, ?_, ?_, ?_, ?_, ?_, ?_, by simp⟩
    · by_cases hu : x.phaseToUse = none
      · simp [hu]
      · simp [(r1 hu).1]
    · by_cases hu : x.phaseToUse = none
      · simp [hu]
      · simp [(r1 hu).2]
    · cases first with
      | false => simp
      | true => simp [rf rfl]
    · cases hn : next with
      | none => simp
      | some n => simp; exact rn n hn
    · by_cases hdc : env.phaseType evse = .DC
      · rcases r2 hdc with ⟨a, b⟩ | ⟨a, b⟩
        · simp [a, b]
        · simp [a]
      · simp [hdc]
    · by_cases hdc : env.phaseType evse = .DC
      · rcases r2 hdc with ⟨a, b⟩ | ⟨a, b⟩
        · simp [a, b]
        · simp [(dcControl_iff env evse h).2 b]
      · simp [hdc]
    · by_cases hac : env.phaseType evse = .AC
      · cases hn : x.phases with
        | none => simp
        | some n => simp [hac]; exact r3 hac n hn
      · simp [hac]
    · cases hv : env.v21 with
      | false => simp
      | true =>
        have := (r4' hv).1
        by_cases hpr : p.purpose = .priority
        · by_cases hm : x.mode.getD .chargingOnly = .chargingOnly
          · simp [hm]
          · rw [hp hpr hm] at this; cases this
        · simp [hpr]
    · cases hv : env.v21 with
      | false => simp
      | true => have := (r4' hv).1; simp only [this]; rfl
    · cases hv : env.v21 with
      | false => simp
      | true => have := (r4' hv).2.1; simp; intro a b; exact this ⟨a, b⟩
    · cases hv : env.v21 with
      | false => simp
      | true =>
        have := (r4' hv).2.2.1
        cases hs : x.sleep.getD false <;> cases he : env.evseSleep <;> simp_all
    · cases hv : env.v21 with
      | false => simp
      | true => have := (r4' hv).2.2.2.1; simp [this]
    · cases hv : env.v21 with
      | false => simp
      | true =>
        have := (r4' hv).2.2.2.2.1
        by_cases hm : x.mode.getD .chargingOnly = .localFrequency
        · have h2 : ¬ _ := fun hh => this ⟨hm, hh⟩
          rw [not_or] at h2
          obtain ⟨h2, h3⟩ := h2
          have h2' : x.curve.all (fun n => decide (n < 2)) = false := by simpa using h2
          have h3' : x.baseline = true := by simpa using h3
          rw [h2', h3']; simp
        · simp [hm]
    · cases hv : env.v21 with
      | false => simp
      | true => have := (r4' hv).2.2.2.2.2; simp [this]

theorem checkPeriods_iff (env : Env) (evse : Int) (h : 0 ≤ evse ∧ evse ≤ (env.evses.length : Int)) (p : Profile) (unit : RUnit)
    (first : Bool) (l : List Period) :
    checkPeriods env evse p unit first l = .valid ↔
      (∀ x ∈ l, PeriodRules env evse p.purpose unit x) ∧ l.Pairwise (fun a b => a.start < b.start) ∧
        (first = true → ∀ a rest, l = a :: rest → a.start = 0) := by
  induction l generalizing first with
  | nil => simp [checkPeriods]
  | cons x rest ih =>
    have hc := checkPeriod_iff env evse h p unit first (rest.head?.map Period.start) x
    have step : checkPeriods env evse p unit first (x :: rest) = .valid ↔
        checkPeriod env evse p unit first (rest.head?.map Period.start) x = .valid ∧ checkPeriods env evse p unit false rest = .valid := by
      rw [checkPeriods, andThen_iff]
    rw [step, hc, ih]
    constructor
    · rintro ⟨⟨h1, h2, h3⟩, h4, h5, _⟩
      refine ⟨?_, ?_, ?_⟩
      · intro y hy
        rcases List.mem_cons.1 hy with rfl | hy
        · exact h1
        · exact h4 y hy
      · rw [List.pairwise_cons]
        refine ⟨?_, h5⟩
        intro y hy
        cases rest with
        | nil => simp at hy
        | cons z rest =>
          have hz := h3 z.start (by simp)
          rcases List.mem_cons.1 hy with rfl | hy
          · exact hz
          · have := (List.pairwise_cons.1 h5).1 y hy
            omega
      · intro hf a r heq
        injection heq with e1 e2
        subst e1
        exact h2 hf
    · rintro ⟨h1, h2, h3⟩
      rw [List.pairwise_cons] at h2
      refine ⟨⟨h1 x (by simp), fun hf => h3 hf x rest rfl, ?_⟩, fun y hy => h1 y (by simp [hy]), h2.2, by simp⟩
      intro n hn
      cases rest with
      | nil => simp at hn
      | cons z rest =>
        simp at hn
        have := h2.1 z (by simp)
        omega

end Verif.PS
