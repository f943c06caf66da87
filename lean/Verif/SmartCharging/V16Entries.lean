import Verif.SmartCharging.TimelineLemmas
import Verif.SmartCharging.V16Spec

/-! The period entries of a profile are exactly what the specification says. -/

namespace Verif.SC16
open Verif.SC

theorem Recur.secs_pos (r : Recur) : 0 < r.secs := by cases r <;> decide

theorem goBack_eq (step now start : Int) (h : 0 < step) : goBack step now start = (now - start) % step := by
  unfold goBack
  simp only
  have h1 : Int.tmod (now - start) step = (now - start) % step - if 0 ≤ (now - start) ∨ step ∣ (now - start) then 0 else step.natAbs := by
    exact Int.tmod_eq_emod
  have h2 := Int.emod_nonneg (now - start) (Int.ne_of_gt h)
  have h3 := Int.emod_lt_of_pos (now - start) h
  by_cases hc : 0 ≤ (now - start) ∨ step ∣ (now - start)
  · rw [if_pos hc] at h1; split <;> omega
  · rw [if_neg hc] at h1
    have : (step.natAbs : Int) = step := by omega
    split <;> omega

theorem recurStarts_mem (step stop : Int) (hs : 0 < step) : ∀ (fuel : Nat) (s : Int), stop - s < fuel →
    ∀ x nx, (x, nx) ∈ withNext (recurStarts step stop fuel s) →
      s ≤ x ∧ (x - s) % step = 0 ∧ x ≤ stop ∧ (nx = some (x + step) ∨ (nx = none ∧ stop < x + step)) := by
  intro fuel
  induction fuel with
  | zero => intro s h x nx hm; simp [recurStarts, withNext] at hm
  | succ n ih =>
    intro s h x nx hm
    unfold recurStarts at hm
    split at hm
    · rename_i hle
      by_cases hn : s + step ≤ stop
      · -- there is a next start
        obtain ⟨m, rfl⟩ : ∃ m, n = m + 1 := ⟨n - 1, by omega⟩
        have e : recurStarts step stop (m+1) (s + step) = (s + step) :: recurStarts step stop m (s + step + step) := by
          rw [recurStarts, if_pos hn]
        rw [e] at hm
        simp only [withNext, List.mem_cons] at hm
        rcases hm with hm | hm
        · injection hm with h1 h2
          subst h1 h2
          refine ⟨Int.le_refl _, by simp, hle, Or.inl rfl⟩
        · have := ih (s + step) (by omega) x nx (by rw [e]; exact hm)
          refine ⟨by omega, ?_, this.2.2⟩
          have h1 := this.2.1
          have : x - s = (x - (s + step)) + step := by omega
          rw [this, Int.add_emod_right]; exact h1
      · have e : recurStarts step stop n (s + step) = [] := by
          cases n with
          | zero => rfl
          | succ m => rw [recurStarts, if_neg hn]
        rw [e] at hm
        simp only [withNext, List.mem_singleton] at hm
        injection hm with h1 h2
        subst h1 h2
        exact ⟨Int.le_refl _, by simp, hle, Or.inr ⟨rfl, by omega⟩⟩
    · simp [withNext] at hm

theorem recurStarts_covers (step stop : Int) (hs : 0 < step) : ∀ (fuel : Nat) (s t : Int), stop - s < fuel → s ≤ t → t ≤ stop →
    ∃ x nx, (x, nx) ∈ withNext (recurStarts step stop fuel s) ∧ x ≤ t ∧ t < x + step := by
  intro fuel
  induction fuel with
  | zero => intro s t h h1 h2; omega
  | succ n ih =>
    intro s t h h1 h2
    rw [recurStarts, if_pos (by omega)]
    by_cases hn : s + step ≤ t
    · obtain ⟨x, nx, h3, h4, h5⟩ := ih (s + step) t (by omega) hn h2
      refine ⟨x, nx, ?_, h4, h5⟩
      revert h3
      cases recurStarts step stop n (s + step) with
      | nil => intro h3; simp [withNext] at h3
      | cons b rest => intro h3; exact List.mem_cons_of_mem _ h3
    · cases hr : recurStarts step stop n (s + step) with
      | nil => exact ⟨s, none, by simp [withNext], h1, by omega⟩
      | cons b rest => exact ⟨s, some b, by simp [withNext], h1, by omega⟩

theorem emod_unique {a x y step : Int} (h : 0 < step) (hx : (x - a) % step = 0) (hy : (y - a) % step = 0) (t : Int)
    (h1 : x ≤ t) (h2 : t < x + step) (h3 : y ≤ t) (h4 : t < y + step) : x = y := by
  have e1 := Int.dvd_of_emod_eq_zero hx
  have e2 := Int.dvd_of_emod_eq_zero hy
  obtain ⟨k, hk⟩ := e1
  obtain ⟨j, hj⟩ := e2
  have h5 : step * k - step * j < step := by omega
  have h6 : -step < step * k - step * j := by omega
  rw [← Int.mul_sub] at h5 h6
  have : k - j = 0 := by
    by_cases hp : 0 < k - j
    · have := Int.mul_le_mul_of_nonneg_left (show 1 ≤ k - j by omega) (Int.le_of_lt h)
      omega
    · by_cases hm : k - j < 0
      · have := Int.mul_le_mul_of_nonneg_left (show k - j ≤ -1 by omega) (Int.le_of_lt h)
        omega
      · omega
  have : k = j := by omega
  subst this; omega

/-- The start times of a profile: at every instant of the window the one in force is the one of the specification. -/
theorem starts_spec (now stop : Int) (session : Option Int) (p : Profile) (t : Int) (h1 : now ≤ t) (h2 : t < stop) :
    (∀ x nx, (x, nx) ∈ withNext (calcStart now stop session p) → x ≤ t → (∀ y, nx = some y → t < y) →
      p.startAt session now t = some x) ∧
    (∀ x, p.startAt session now t = some x →
      ∃ nx, (x, nx) ∈ withNext (calcStart now stop session p) ∧ ∀ y, nx = some y → t < y) := by
  unfold calcStart Profile.startAt
  cases hk : p.kind with
  | absolute =>
    simp only [withNext, List.mem_singleton]
    refine ⟨?_, ?_⟩
    · intro x nx hx _ _; injection hx with h3 h4; rw [h3]
    · intro x hx; injection hx with hx; exact ⟨none, by rw [hx], by simp⟩
  | relative =>
    simp only [withNext, List.mem_singleton]
    refine ⟨?_, ?_⟩
    · intro x nx hx _ _; injection hx with h3 h4; rw [h3]
    · intro x hx; injection hx with hx; exact ⟨none, by rw [hx], by simp⟩
  | recurring =>
    simp only
    cases hr : p.recur with
    | none => simp [withNext]
    | some r =>
      cases hss : p.startSchedule with
      | none => cases r <;> simp [withNext]
      | some ss =>
        have hspec : ∀ x, p.startAt session now t = some x ↔ some (t - (t - ss) % r.secs) = some x := by
          intro x; unfold Profile.startAt; rw [hk, hr, hss]; cases r <;> rfl
        unfold Profile.startAt at hspec
        rw [hk, hr, hss] at hspec
        simp only at hspec
        simp only [hspec]
        have hp := r.secs_pos
        clear hspec
        generalize hstep : r.secs = step at *
        have hg := goBack_eq step now ss hp
        have hg1 := Int.emod_nonneg (now - ss) (Int.ne_of_gt hp)
        have hg2 := Int.emod_lt_of_pos (now - ss) hp
        generalize hs0 : now - goBack step now ss = s0
        have hs0' : (s0 - ss) % step = 0 := by
          rw [← hs0, hg]
          have : now - (now - ss) % step - ss = (now - ss) - (now - ss) % step := by omega
          rw [this]
          have h9 := Int.emod_add_mul_ediv (now - ss) step
          have h8 : now - ss - (now - ss) % step = step * ((now - ss) / step) := by omega
          rw [h8]
          exact Int.mul_emod_right _ _
        have hfuel : stop - s0 < ((stop - s0 + 1).toNat : Int) := by omega
        have ht1 := Int.emod_nonneg (t - ss) (Int.ne_of_gt hp)
        have ht2 := Int.emod_lt_of_pos (t - ss) hp
        have ht3 : (t - (t - ss) % step - ss) % step = 0 := by
          have : t - (t - ss) % step - ss = (t - ss) - (t - ss) % step := by omega
          rw [this]
          have h9 := Int.emod_add_mul_ediv (t - ss) step
          have h8 : t - ss - (t - ss) % step = step * ((t - ss) / step) := by omega
          rw [h8]
          exact Int.mul_emod_right _ _
        have cong : ∀ x, (x - s0) % step = 0 → (x - ss) % step = 0 := by
          intro x hx
          have : x - ss = (x - s0) + (s0 - ss) := by omega
          rw [this, Int.add_emod, hx, hs0']; simp
        have mem := recurStarts_mem step stop hp (stop - s0 + 1).toNat s0 hfuel
        refine ⟨?_, ?_⟩
        · intro x nx hx hxt hnx
          obtain ⟨m1, m2, m3, m4⟩ := mem x nx hx
          have hlt : t < x + step := by
            rcases m4 with m4 | ⟨_, m4⟩
            · exact hnx _ m4
            · omega
          rw [emod_unique hp ht3 (cong x m2) t (by omega) (by omega) hxt hlt]
        · intro x hx
          injection hx with hx
          obtain ⟨y, nx, c1, c2, c3⟩ := recurStarts_covers step stop hp (stop - s0 + 1).toNat s0 t hfuel (by omega) (by omega)
          obtain ⟨m1, m2, m3, m4⟩ := mem y nx c1
          have : x = y := by
            rw [← hx]
            exact emod_unique hp ht3 (cong y m2) t (by omega) (by omega) c2 c3
          subst this
          refine ⟨nx, c1, ?_⟩
          intro z hz
          rcases m4 with m4 | ⟨m4, _⟩
          · rw [m4] at hz; injection hz with hz; omega
          · rw [m4] at hz; cases hz

theorem entryDuration_spec (p : Profile) (next : Option Period) (s : Int) (ns : Option Int) (t : Int)
    (hnext : ∀ n, next = some n → n.start ≤ intMax) :
    t < s + entryDuration p next s ns ↔
      (∀ n, next = some n → t - s < n.start) ∧ t < s + intMax ∧ t < s + p.duration.getD intMax ∧ (∀ y, ns = some y → t < y) ∧
      t < p.validTo.getD (t + 1) := by
  unfold entryDuration
  have im : intMax = 2147483647 := rfl
  have hcl : ∀ x : Int, clampInt x = if x ≤ intMax then x else intMax := by
    intro x
    split
    · exact clampInt_of_le ‹_›
    · unfold clampInt; rw [if_neg ‹_›]
  simp only [hcl]
  cases next with
  | none =>
    cases p.duration <;> cases ns <;> cases p.validTo <;>
      simp only [Option.getD_some, Option.getD_none, Option.some.injEq, forall_eq', reduceCtorEq, false_implies, implies_true, true_and] <;>
      (repeat' split) <;> omega
  | some n =>
    have := hnext n rfl
    cases p.duration <;> cases ns <;> cases p.validTo <;>
      simp only [Option.getD_some, Option.getD_none, Option.some.injEq, forall_eq', reduceCtorEq, false_implies, implies_true, true_and] <;>
      (repeat' split) <;> omega

theorem mkEntry_spec (p : Profile) (per : Period) (s d now t : Int) (ht : now ≤ t) (e : Entry IP) :
    (mkEntry p per s d now = some e → e.val = content p per ∧ e.stack = p.stack ∧
      (e.activeAt t ↔ s + per.start ≤ t ∧ p.validFrom.getD t ≤ t ∧ t < s + d)) ∧
    (s + per.start ≤ t → p.validFrom.getD t ≤ t → t < s + d → ∃ e, mkEntry p per s d now = some e ∧ e.activeAt t) := by
  unfold mkEntry Entry.activeAt
  simp only
  cases hv : p.validFrom with
  | none =>
    simp only [Option.getD_none]
    refine ⟨?_, ?_⟩
    · split
      · intro h; injection h with h; subst h
        exact ⟨rfl, rfl, by simp only; omega⟩
      · intro h; cases h
    · intro h1 h2 h3
      rw [if_pos (by omega)]
      exact ⟨_, rfl, by simp only; omega⟩
  | some vf =>
    simp only [Option.getD_some]
    refine ⟨?_, ?_⟩
    · split
      · split
        · intro h; cases h
        · split
          · intro h; injection h with h; subst h
            exact ⟨rfl, rfl, by simp only; omega⟩
          · intro h; cases h
      · split
        · intro h; injection h with h; subst h
          exact ⟨rfl, rfl, by simp only; omega⟩
        · intro h; cases h
    · intro h1 h2 h3
      split
      · rw [if_neg (by omega), if_pos (by omega)]
        exact ⟨_, rfl, by simp only; omega⟩
      · rw [if_pos (by omega)]
        exact ⟨_, rfl, by simp only; omega⟩

theorem periodAt_of_index {l : List Period} (hl : l.Pairwise (fun a b => a.start < b.start)) (off : Int) :
    ∀ (i : Nat) (per : Period), l[i]? = some per → per.start ≤ off → (∀ n, l[i+1]? = some n → off < n.start) →
      (l.filter (fun x => decide (x.start ≤ off))).getLast? = some per := by
  induction l with
  | nil => intro i per h; simp at h
  | cons a l ih =>
    intro i per hi hle hnext
    obtain ⟨ha, hl'⟩ := List.pairwise_cons.1 hl
    cases i with
    | zero =>
      simp only [List.getElem?_cons_zero, Option.some.injEq] at hi
      subst hi
      have : l.filter (fun x => decide (x.start ≤ off)) = [] := by
        rw [List.filter_eq_nil_iff]
        intro x hx
        cases l with
        | nil => cases hx
        | cons b l =>
          have hb := hnext b (by simp)
          rcases List.mem_cons.1 hx with rfl | hx
          · simp; omega
          · have := (List.pairwise_cons.1 hl').1 x hx
            simp; omega
      rw [List.filter_cons, if_pos (by simpa using hle), this]
      rfl
    | succ i =>
      have hi' : l[i]? = some per := by simpa using hi
      have := ih hl' i per hi' hle (by intro n hn; exact hnext n (by simpa using hn))
      rw [List.filter_cons]
      split
      · rw [List.getLast?_cons, this]; rfl
      · exact this

theorem exists_index {l : List Period} (off : Int) : (∃ a rest, l = a :: rest ∧ a.start ≤ off) →
    ∃ i per, l[i]? = some per ∧ per.start ≤ off ∧ ∀ n, l[i+1]? = some n → off < n.start := by
  induction l with
  | nil => rintro ⟨a, rest, h, _⟩; cases h
  | cons a l ih =>
    rintro ⟨a', rest, h, hle⟩
    injection h with h1 h2
    subst h1
    cases l with
    | nil => exact ⟨0, a, rfl, hle, by simp⟩
    | cons b l =>
      by_cases hb : b.start ≤ off
      · obtain ⟨i, per, h3, h4, h5⟩ := ih ⟨b, l, rfl, hb⟩
        exact ⟨i+1, per, by simpa using h3, h4, by intro n hn; exact h5 n (by simpa using hn)⟩
      · exact ⟨0, a, rfl, hle, by intro n hn; simp at hn; subst hn; omega⟩

theorem Profile.Ordered.periodOk {p : Profile} (h : p.Ordered) {i : Nat} {per : Period} (hi : p.periods[i]? = some per) :
    SC16.periodOk p i per = true := by
  obtain ⟨⟨a, rest, e, ha⟩, hinc, _⟩ := h
  unfold SC16.periodOk
  split
  · rename_i h0
    subst h0
    rw [e] at hi; simp at hi; subst hi; simpa using ha
  · rename_i h0
    split
    · rename_i prev hp
      simp only [decide_eq_true_eq]
      obtain ⟨hl1, e1⟩ := List.getElem?_eq_some_iff.1 hp
      obtain ⟨hl2, e2⟩ := List.getElem?_eq_some_iff.1 hi
      rw [← e1, ← e2]
      exact List.pairwise_iff_getElem.1 hinc (i-1) i hl1 hl2 (by omega)
    · rfl

/-- **Entries of one profile.** -/
theorem entries_spec (now stop : Int) (session : Option Int) (p : Profile) (hp : p.Ordered) (t : Int) (h1 : now ≤ t) (h2 : t < stop) :
    (∀ e ∈ profileEntries now stop session p, e.activeAt t →
      ∃ per, p.inForce session now t = some per ∧ e.val = content p per ∧ e.stack = p.stack) ∧
    (∀ per, p.inForce session now t = some per → ∃ e ∈ profileEntries now stop session p, e.activeAt t) := by
  have hsmall : ∀ (i : Nat) (n : Period), p.periods[i]? = some n → n.start ≤ intMax := by
    intro i n hn; exact hp.small n (List.mem_of_getElem? hn)
  obtain ⟨st1, st2⟩ := starts_spec now stop session p t h1 h2
  refine ⟨?_, ?_⟩
  · intro e he hact
    unfold profileEntries at he
    simp only [List.mem_flatMap, List.mem_range, List.mem_filter] at he
    obtain ⟨i, _, he, _⟩ := he
    unfold profileEntry at he
    cases hi : p.periods[i]? with
    | none => rw [hi] at he; simp at he
    | some per =>
      rw [hi] at he
      simp only [hp.periodOk hi, if_true, List.mem_filterMap] at he
      obtain ⟨⟨x, nx⟩, hx, he⟩ := he
      simp only at he
      obtain ⟨v1, v2, v3⟩ := (mkEntry_spec p per x _ now t h1 e).1 he
      obtain ⟨a1, a2, a3⟩ := v3.1 hact
      obtain ⟨d1, d2, d3, d4, d5⟩ := (entryDuration_spec p _ x nx t (hsmall (i+1))).1 a3
      have hper0 : 0 ≤ per.start := by
        obtain ⟨⟨a, rest, e0, ha⟩, hinc, _⟩ := hp
        cases i with
        | zero => rw [e0] at hi; simp at hi; subst hi; omega
        | succ i =>
          rw [e0] at hi hinc
          have := (List.pairwise_cons.1 hinc).1 per (List.mem_of_getElem? (by simpa using hi))
          omega
      have hst := st1 x nx hx (by omega) d4
      refine ⟨per, ?_, v1, v2⟩
      unfold Profile.inForce
      rw [hst]
      simp only
      rw [if_pos ⟨by omega, d3, d2, a2, d5⟩]
      exact periodAt_of_index hp.increasing (t - x) i per hi (by omega) d1
  · intro per hf
    unfold Profile.inForce at hf
    cases hs : p.startAt session now t with
    | none => rw [hs] at hf; cases hf
    | some x =>
      rw [hs] at hf
      simp only at hf
      split at hf
      · rename_i hc
        obtain ⟨c1, c2, c3, c4, c5⟩ := hc
        obtain ⟨⟨a, rest, e0, ha⟩, _, _⟩ := hp
        obtain ⟨i, q, q1, q2, q3⟩ := exists_index (l := p.periods) (t - x) ⟨a, rest, e0, by omega⟩
        obtain ⟨nx, hx, hnx⟩ := st2 x hs
        have hdur := (entryDuration_spec p (p.periods[i+1]?) x nx t (hsmall (i+1))).2 ⟨q3, c3, c2, hnx, c5⟩
        obtain ⟨e, he, hact⟩ := (mkEntry_spec p q x (entryDuration p (p.periods[i+1]?) x nx) now t h1 ⟨0, 0, 0, gapIP⟩).2
          (by omega) c4 hdur
        refine ⟨e, ?_, hact⟩
        unfold profileEntries
        simp only [List.mem_flatMap, List.mem_range, List.mem_filter]
        refine ⟨i, (List.getElem?_eq_some_iff.1 q1).1, ?_, by unfold Entry.activeAt at hact; simp; omega⟩
        unfold profileEntry
        rw [q1]
        have hok : SC16.periodOk p i q = true := Profile.Ordered.periodOk ⟨⟨a, rest, e0, ha⟩, by assumption, by assumption⟩ q1
        simp only [hok, if_true, List.mem_filterMap]
        exact ⟨(x, nx), hx, he⟩
      · cases hf

/-- **Entries of all profiles with one purpose, after generating the list of periods.** -/
theorem decides_of_genValue (sort : Sorter) (hsort : SortsByStack sort) (now stop : Int) (session : Option Int)
    (ps : List Profile) (purpose : Purpose) (hps : ∀ p ∈ ps, p.purpose = purpose → p.Ordered) (t : Int) (h1 : now ≤ t) (h2 : t < stop) :
    ∃ r, Decides (fun p => p ∈ ps ∧ p.purpose = purpose) session now t r ∧
      genValue (sort (allEntries now stop session ps purpose)) gapIP t =
        (match r with | some (p, per) => content p per | none => gapIP) := by
  have mem : ∀ e, e ∈ sort (allEntries now stop session ps purpose) ↔
      ∃ p ∈ ps, p.purpose = purpose ∧ e ∈ profileEntries now stop session p := by
    intro e
    rw [(hsort.perm _).mem_iff]
    unfold allEntries
    simp only [List.mem_flatMap, List.mem_filter, decide_eq_true_eq]
    constructor
    · rintro ⟨p, ⟨a, b⟩, c⟩; exact ⟨p, a, b, c⟩
    · rintro ⟨p, a, b, c⟩; exact ⟨p, ⟨a, b⟩, c⟩
  unfold genValue
  cases hf : firstActive (sort (allEntries now stop session ps purpose)) t with
  | none =>
    refine ⟨none, ?_, rfl⟩
    rintro p ⟨hp, hpu⟩
    cases hi : p.inForce session now t with
    | none => rfl
    | some per =>
      obtain ⟨e, he, hact⟩ := (entries_spec now stop session p (hps p hp hpu) t h1 h2).2 per hi
      have := List.find?_eq_none.1 hf e ((mem e).2 ⟨p, hp, hpu, he⟩)
      simp [hact] at this
  | some e =>
    obtain ⟨hm, hact⟩ := firstActive_mem hf
    obtain ⟨p, hp, hpu, he⟩ := (mem e).1 hm
    obtain ⟨per, i1, i2, i3⟩ := (entries_spec now stop session p (hps p hp hpu) t h1 h2).1 e he hact
    refine ⟨some (p, per), ⟨⟨hp, hpu⟩, i1, ?_⟩, i2⟩
    rintro q ⟨hq, hqu⟩ hqi
    cases hi : q.inForce session now t with
    | none => exact absurd hi hqi
    | some per' =>
      obtain ⟨e', he', hact'⟩ := (entries_spec now stop session q (hps q hq hqu) t h1 h2).2 per' hi
      obtain ⟨_, j1, j2, j3⟩ := (entries_spec now stop session q (hps q hq hqu) t h1 h2).1 e' he' hact'
      have := firstActive_max hf (hsort.sorted _) e' ((mem e').2 ⟨q, hq, hqu, he'⟩) hact'
      omega

end Verif.SC16
