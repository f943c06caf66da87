import Verif.ProfileStore.Lemmas

/-! # `validate` is valid exactly for acceptable profiles -/

set_option linter.unusedSimpArgs false
set_option linter.unusedVariables false

namespace Verif.PS
open Verif.SC16 (RUnit)

theorem sched21_iff (env : Env) (p : Profile) (s : Schedule) :
    ScheduleRules21 env p s ↔
      (¬ (p.purpose ≠ .tx ∧ p.purpose ≠ .txDefault ∧ s.randomDelay.any (fun d => decide (d > 0)) = true) ∧
        ¬ (p.purpose = .priority ∧ env.priority = false) ∧ ¬ (p.purpose = .localGeneration ∧ env.localGeneration = false) ∧
        ¬ (p.kind = .dynamic ∧ env.dynamicProfiles = false) ∧ ¬ ((p.dynInterval = true ∨ p.dynTime = true) ∧ p.kind ≠ .dynamic) ∧
        ¬ (s.useLocalTime.getD false = true ∧ env.localTime = false) ∧ ¬ (s.randomDelay.isSome = true ∧ env.randomDelay = false) ∧
        ¬ (s.limitAtSoC = true ∧ env.limitAtSoC = false)) := by
  constructor
  · rintro ⟨h1, h2, h3, h4, h5, h6, h7⟩
    refine ⟨?_, ?_, ?_, ?_, ?_, ?_, ?_, ?_⟩
    · rintro ⟨a, b, c⟩
      cases hd : s.randomDelay with
      | none => simp [hd] at c
      | some d =>
        simp [hd] at c
        rcases (h1 d hd).2 c with h | h <;> contradiction
    · rintro ⟨a, b⟩; rw [h2 a] at b; cases b
    · rintro ⟨a, b⟩; rw [h3 a] at b; cases b
    · rintro ⟨a, b⟩; rw [h4 a] at b; cases b
    · rintro ⟨a, b⟩; exact b (h5 a)
    · rintro ⟨a, b⟩
      have : s.useLocalTime = some true := by cases hx : s.useLocalTime <;> simp_all
      rw [h6 this] at b; cases b
    · rintro ⟨a, b⟩
      cases hd : s.randomDelay with
      | none => simp [hd] at a
      | some d => rw [(h1 d hd).1] at b; cases b
    · rintro ⟨a, b⟩; rw [h7 a] at b; cases b
  · rintro ⟨h1, h2, h3, h4, h5, h6, h7, h8⟩
    refine ⟨?_, ?_, ?_, ?_, ?_, ?_, ?_⟩
    · intro d hd
      refine ⟨by simpa [hd] using h7, ?_⟩
      intro h0
      by_cases a : p.purpose = .tx
      · exact .inl a
      · right
        by_contra b
        exact h1 ⟨a, b, by simp [hd, h0]⟩
    · intro a; simpa [a] using h2
    · intro a; simpa [a] using h3
    · intro a; simpa [a] using h4
    · intro a; by_contra b; exact h5 ⟨a, b⟩
    · intro a; simpa [a] using h6
    · intro a; simpa [a] using h8

theorem checkSchedule_iff (env : Env) (evse : Int) (h : 0 ≤ evse ∧ evse ≤ (env.evses.length : Int)) (p : Profile) (s : Schedule) :
    checkSchedule env evse p s = .valid ↔ ScheduleRules env evse p s := by
  have split3 : checkSchedule env evse p s = .valid ↔
      ((env.supports s.unit = true ∧ s.periods ≠ [] ∧ (env.v21 = true → ScheduleRules21 env p s)) ∧
        checkPeriods env evse p s.unit true s.periods = .valid ∧
        ¬ ((p.kind = .absolute ∨ p.kind = .recurring) ∧ s.start = none) ∧ ¬ (p.kind = .relative ∧ s.start ≠ none)) := by
    unfold checkSchedule
    rw [andThen_iff, andThen_iff, firstFailure_valid _ (by simp), firstFailure_valid _ (by simp)]
    simp only [List.forall_mem_cons, List.forall_mem_nil, and_true, sched21_iff]
    apply and_congr
    · cases hv : env.v21 with
      | false => cases hs : s.periods <;> simp [hs]
      | true =>
        cases hs : s.periods <;> simp [hs]
        intro _
        tauto
    · apply and_congr Iff.rfl
      cases hst : s.start <;> simp
  rw [split3, checkPeriods_iff env evse h]
  constructor
  · rintro ⟨⟨h1, h2, h3⟩, ⟨h4, h5, h6⟩, h7, h8⟩
    refine ⟨?_, ?_, h5, h4, ?_, h3⟩
    · constructor <;> intro hu <;> rw [hu] at h1 <;> exact h1
    · cases hs : s.periods with
      | nil => exact absurd hs h2
      | cons a rest => exact ⟨a, rest, rfl, h6 rfl a rest hs⟩
    · constructor
      · intro hk hn; exact h7 ⟨hk, hn⟩
      · intro hk; by_contra hn; exact h8 ⟨hk, hn⟩
  · rintro ⟨h1, ⟨a, rest, h2, h20⟩, h3, h4, h5, h6⟩
    refine ⟨⟨?_, by simp [h2], h6⟩, ⟨h4, h3, ?_⟩, ?_, ?_⟩
    · cases hu : s.unit with
      | A => exact h1.1 hu
      | W => exact h1.2 hu
    · intro _ a' rest' heq
      rw [h2] at heq; injection heq with e1 e2; rw [← e1]; exact h20
    · rintro ⟨x, y⟩; exact h5.1 x y
    · rintro ⟨x, y⟩; exact y (h5.2 x)

theorem checkSchedules_iff (env : Env) (evse : Int) (h : 0 ≤ evse ∧ evse ≤ (env.evses.length : Int)) (p : Profile) (l : List Schedule) :
    checkSchedules env evse p l = .valid ↔ ∀ s ∈ l, ScheduleRules env evse p s := by
  induction l with
  | nil => simp [checkSchedules]
  | cons s rest ih =>
    rw [checkSchedules, List.forall_mem_cons, ← ih, ← checkSchedule_iff env evse h, andThen_iff]

theorem validateSchedules_iff (env : Env) (evse : Int) (h : 0 ≤ evse ∧ evse ≤ (env.evses.length : Int)) (p : Profile) :
    validateSchedules env evse p = .valid ↔ p.schedules ≠ [] ∧ ∀ s ∈ p.schedules, ScheduleRules env evse p s := by
  unfold validateSchedules
  rw [← checkSchedules_iff env evse h]
  cases p.schedules <;> simp

theorem ite_valid (b : Bool) (r r' : Result) (h : r ≠ .valid) : (if b = true then r else r') = .valid ↔ b = false ∧ r' = .valid := by
  cases b <;> simp [h]

theorem exists_iff (env : Env) (evse : Int) : env.exists? evse = true ↔ 0 ≤ evse ∧ evse ≤ (env.evses.length : Int) := by
  simp [Env.exists?]

theorem externalId_iff (env : Env) (rows : List Row) (p : Profile) :
    checkExternalId env rows p = .valid ↔
      (∀ r ∈ rows, r.profile.id = p.id → r.profile.purpose ≠ .external) ∧ (env.v21 = true → ∀ m, env.maxExternalId = some m → m < p.id) := by
  unfold checkExternalId
  split
  · rename_i h
    simp only [Bool.and_eq_true, Option.any_eq_true] at h
    obtain ⟨hv, m, hm, hle⟩ := h
    constructor
    · intro h; cases h
    · rintro ⟨_, h⟩
      have := h hv m hm
      simp at hle; omega
  · rename_i h
    have h2 : env.v21 = true → ∀ m, env.maxExternalId = some m → m < p.id := by
      intro hv m hm
      simp [hv, hm] at h
      exact h
    split
    · rename_i hr
      simp only [List.any_eq_true, Bool.and_eq_true, decide_eq_true_eq] at hr
      obtain ⟨r, hr, h3, h4⟩ := hr
      constructor
      · intro h; cases h
      · rintro ⟨h, _⟩; exact absurd h4 (h r hr h3)
    · rename_i hr
      simp only [List.any_eq_true, Bool.and_eq_true, decide_eq_true_eq, not_exists, not_and] at hr
      simp only [true_iff]
      exact ⟨fun r h1 h2 => hr r h1 h2, h2⟩

theorem overlaps_iff' (rows : List Row) (evse : Int) (p : Profile) :
    overlaps rows evse p = false ↔
      (p.purpose ≠ .tx → ∀ r ∈ rows, r.profile.purpose = p.purpose → r.evse = evse → r.profile.stack = p.stack →
        r.profile.id ≠ p.id →
        r.profile.validTo.getD forever < p.validFrom.getD 0 ∨ p.validTo.getD forever < r.profile.validFrom.getD 0) := by
  unfold overlaps
  by_cases ht : p.purpose = .tx
  · simp [ht]
  · simp only [ht, if_false, List.any_eq_false, Bool.and_eq_true, decide_eq_true_eq, ge_iff_le]
    constructor
    · intro h _ r hr h1 h2 h3 h4
      have := h r hr
      by_contra hn
      push Not at hn
      exact this ⟨⟨⟨⟨⟨h1, h2⟩, h4⟩, h3⟩, hn.1⟩, hn.2⟩
    · rintro h r hr ⟨⟨⟨⟨⟨h1, h2⟩, h4⟩, h3⟩, h5⟩, h7⟩
      rcases h ht r hr h1 h2 h3 h4 with h6 | h6
      · omega
      · omega

theorem overlaps_iff (rows : List Row) (evse : Int) (p : Profile) :
    overlaps rows evse (conformValidity p) = false ↔
      (p.purpose ≠ .tx → ∀ r ∈ rows, r.profile.purpose = p.purpose → r.evse = evse → r.profile.stack = p.stack →
        r.profile.id ≠ p.id →
        r.profile.validTo.getD forever < p.validFrom.getD 0 ∨ p.validTo.getD forever < r.profile.validFrom.getD 0) := by
  rw [overlaps_iff']
  exact Iff.rfl

theorem txDefault_iff (rows : List Row) (evse : Int) (p : Profile) :
    checkTxDefault rows evse p = .valid ↔ ∀ r ∈ rows, r.profile.purpose = .txDefault → r.profile.stack = p.stack →
        r.profile.id ≠ p.id → ¬ ((evse = 0 ∧ r.evse ≠ 0) ∨ (evse ≠ 0 ∧ r.evse = 0)) := by
  unfold checkTxDefault
  rw [ite_valid _ _ _ (by simp)]
  simp only [List.any_eq_false, Bool.and_eq_true, decide_eq_true_eq, and_true]
  constructor
  · intro h r hr h1 h2 h3 h4
    apply h r hr
    refine ⟨⟨⟨h1, ?_⟩, h2⟩, h3⟩
    rcases h4 with ⟨a, b⟩ | ⟨a, b⟩ <;> simp [a, b]
  · rintro h r hr ⟨⟨⟨h1, h4⟩, h2⟩, h3⟩
    apply h r hr h1 h2 h3
    by_cases h0 : evse = 0
    · simp [h0] at h4 ⊢; exact h4
    · simp [h0] at h4 ⊢; exact h4

theorem running_iff (env : Env) (evse : Int) (i : Nat) : (env.evse? evse).bind EvseInfo.tx = some i ↔ env.Running evse i := by
  unfold Env.evse? Env.Running
  split
  · constructor
    · intro h; simp at h
    · rintro ⟨k, e, h1, _⟩; omega
  · rename_i h
    constructor
    · intro hb
      cases he : env.evses[(evse - 1).toNat]? with
      | none => rw [he] at hb; simp at hb
      | some e => rw [he] at hb; exact ⟨(evse - 1).toNat, e, by omega, he, by simpa using hb⟩
    · rintro ⟨k, e, h1, h2, h3⟩
      have : (evse - 1).toNat = k := by omega
      simp [this, h2, h3]

theorem checkPurpose_iff (env : Env) (rows : List Row) (evse : Int) (h : 0 ≤ evse ∧ evse ≤ (env.evses.length : Int)) (p : Profile) :
    checkPurpose env rows evse p .set = .valid ↔ PurposeRules env evse p ∧
      (p.purpose = .txDefault → ∀ r ∈ rows, r.profile.purpose = .txDefault → r.profile.stack = p.stack →
        r.profile.id ≠ p.id → ¬ ((evse = 0 ∧ r.evse ≠ 0) ∨ (evse ≠ 0 ∧ r.evse = 0))) ∧
      (p.purpose = .tx → ∀ r ∈ rows, r.profile.txId = p.txId → r.profile.stack = p.stack → r.profile.id = p.id) := by
  unfold checkPurpose
  cases hp : p.purpose with
  | external =>
    simp only [true_iff]
    exact ⟨⟨by simp [hp], by simp [hp], by simp [hp], by simp [hp]⟩, by simp, by simp⟩
  | stationMax =>
    simp only [checkMax]
    constructor
    · intro hc
      split at hc
      · cases hc
      · split at hc
        · cases hc
        · rename_i h1 h2
          exact ⟨⟨fun _ => ⟨by omega, h2⟩, by simp [hp], by simp [hp], by simp [hp]⟩, by simp, by simp⟩
    · rintro ⟨⟨h1, _, _, _⟩, _⟩
      obtain ⟨a, b⟩ := h1 hp
      simp [a, b]
  | txDefault =>
    show checkTxDefault rows evse p = .valid ↔ _
    rw [txDefault_iff]
    constructor
    · intro hd
      exact ⟨⟨by simp [hp], by simp [hp], by simp [hp], by simp [hp]⟩, fun _ => hd, by simp⟩
    · rintro ⟨_, hd, _⟩
      exact hd rfl
  | tx =>
    simp only [checkTx]
    constructor
    · intro hc
      split at hc
      · cases hc
      · split at hc
        · cases hc
        · rename_i h0 h1
          simp only [reduceCtorEq, if_false] at hc
          split at hc
          · cases hc
          · rename_i i hi
            split at hc
            · cases hc
            · rename_i j hj
              split at hc
              · cases hc
              · rename_i hij
                simp only [ne_eq, not_not] at hij
                subst hij
                split at hc
                · cases hc
                · rename_i hr
                  refine ⟨⟨by simp [hp], fun _ => ⟨j, hi, (running_iff env evse j).1 hj⟩, by simp [hp], by simp [hp]⟩, by simp, ?_⟩
                  intro _ r hr1 h2 h3
                  by_contra h4
                  apply hr
                  simp only [List.any_eq_true, Bool.and_eq_true, decide_eq_true_eq]
                  exact ⟨r, hr1, ⟨h2.trans hi, h3⟩, h4⟩
    · rintro ⟨⟨_, ht, _, _⟩, _, hu⟩
      obtain ⟨i, hi, hrun⟩ := ht hp
      have hrun' := (running_iff env evse i).2 hrun
      obtain ⟨k, e, hk, _⟩ := hrun
      have h0 : ¬ evse ≤ 0 := by omega
      have h1 := (exists_iff env evse).2 h
      simp only [h0, if_false, h1, Bool.not_true, Bool.false_eq_true, reduceCtorEq, hi, hrun', ne_eq, not_true_eq_false]
      rw [if_neg]
      simp only [List.any_eq_true, Bool.and_eq_true, decide_eq_true_eq]
      rintro ⟨r, hr1, ⟨h2, h3⟩, h4⟩
      exact h4 (hu trivial r hr1 (h2.trans hi.symm) h3)
  | priority =>
    simp only [checkPriority]
    constructor
    · intro hc
      split at hc
      · cases hc
      · rename_i hr
        refine ⟨⟨by simp [hp], by simp [hp], ?_, by simp [hp]⟩, by simp, by simp⟩
        intro _ s hs
        simp only [List.any_eq_true, not_exists, not_and] at hr
        simpa using hr s hs
    · rintro ⟨⟨_, _, hd, _⟩, _⟩
      rw [if_neg]
      simp only [List.any_eq_true, not_exists, not_and]
      intro s hs
      simp [hd hp s hs]
  | localGeneration =>
    constructor
    · intro h; cases h
    · rintro ⟨⟨_, _, _, h⟩, _⟩; exact absurd hp h

/-- Validation of a profile from SetChargingProfile (or of a stored one) succeeds exactly for acceptable profiles. -/
theorem validate_iff (env : Env) (rows : List Row) (evse : Int) (p : Profile) :
    validate env rows evse p .set = .valid ↔ Acceptable env rows evse p := by
  unfold validate
  rw [if_neg (by simp)]
  by_cases hk : evse ≠ 0 ∧ env.exists? evse = false
  · rw [if_pos hk]
    constructor
    · intro h; cases h
    · intro h
      rw [(exists_iff env evse).2 h.known] at hk
      simp at hk
  · rw [if_neg hk]
    have hk' : 0 ≤ evse ∧ evse ≤ (env.evses.length : Int) := by
      by_cases h0 : evse = 0
      · omega
      · rw [← exists_iff]
        by_contra hn
        exact hk ⟨h0, by simpa using hn⟩
    rw [andThen_iff, andThen_iff, ite_valid _ .duplicateValidity _ (by simp), externalId_iff, validateSchedules_iff env evse hk', overlaps_iff, checkPurpose_iff env rows evse hk']
    constructor
    · rintro ⟨⟨a1, a2⟩, ⟨b1, b2⟩, c, d, e, f⟩
      exact ⟨hk', b1, b2, ⟨a1, a2, c, e, f⟩, d⟩
    · rintro ⟨k, b1, b2, ⟨a1, a2, c, e, f⟩, d⟩
      exact ⟨⟨a1, a2⟩, ⟨b1, b2⟩, c, d, e, f⟩

/-- Profiles that come with RequestStartTransaction: only TxProfiles, and the transaction is not checked. -/
theorem validate_remote (env : Env) (rows : List Row) (evse : Int) (p : Profile) :
    validate env rows evse p .remoteStart = .valid ↔
      p.purpose = .tx ∧ (1 ≤ evse ∧ evse ≤ (env.evses.length : Int)) ∧ p.schedules ≠ [] ∧ (∀ s ∈ p.schedules, ScheduleRules env evse p s) ∧
        (∀ r ∈ rows, r.profile.id = p.id → r.profile.purpose ≠ .external) ∧
        (env.v21 = true → ∀ m, env.maxExternalId = some m → m < p.id) := by
  unfold validate
  by_cases hp : p.purpose = .tx
  · rw [if_neg (by simp [hp])]
    by_cases hk : evse ≠ 0 ∧ env.exists? evse = false
    · rw [if_pos hk]
      constructor
      · intro h; cases h
      · rintro ⟨_, h, _⟩
        rw [(exists_iff env evse).2 (by omega)] at hk
        simp at hk
    · rw [if_neg hk]
      have hk' : 0 ≤ evse ∧ evse ≤ (env.evses.length : Int) := by
        by_cases h0 : evse = 0
        · omega
        · rw [← exists_iff]
          by_contra hn
          exact hk ⟨h0, by simpa using hn⟩
      rw [andThen_iff, andThen_iff, ite_valid _ .duplicateValidity _ (by simp), externalId_iff, validateSchedules_iff env evse hk', overlaps_iff]
      have hc : checkPurpose env rows evse p .remoteStart = .valid ↔ 1 ≤ evse := by
        have h1 := (exists_iff env evse).2 hk'
        simp only [checkPurpose, hp, checkTx, h1]
        by_cases h0 : evse ≤ 0
        · simp [h0]; omega
        · simp [h0]; omega
      rw [hc]
      constructor
      · rintro ⟨⟨a1, a2⟩, ⟨b1, b2⟩, c, d⟩
        exact ⟨hp, ⟨d, hk'.2⟩, b1, b2, a1, a2⟩
      · rintro ⟨_, d, b1, b2, a1, a2⟩
        exact ⟨⟨a1, a2⟩, ⟨b1, b2⟩, fun h => absurd hp h, d.1⟩
  · rw [if_pos (by simp [hp])]
    simp [hp]

end Verif.PS
