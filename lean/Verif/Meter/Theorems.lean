import Verif.Meter.Model
import Mathlib.Tactic.Linarith
import Mathlib.Tactic.Ring
import Mathlib.Algebra.Order.Ring.Int
/-
Theorems about clock-aligned timers (C46), the reduction of StopTransaction.req (C47) and the meter values of TransactionEvent(Ended) (C101).
-/
set_option linter.constructorNameAsVariable false

namespace Verif.Met

/-! ## C46: clock-aligned timers -/

/-- The instants at which the timer shall fire: the start and every interval after it. -/
def Aligned (start interval t : Int) : Prop := ∃ k : Nat, t = start + k * interval * NS

theorem NS_pos : 0 < NS := by decide

/-- Division by the interval of whole seconds. -/
theorem quot_spec (d I : Int) (hd : 0 ≤ d) (hI : 0 < I) :
    0 ≤ (d.tdiv NS).tdiv I ∧ (d.tdiv NS).tdiv I * I * NS ≤ d ∧ d < ((d.tdiv NS).tdiv I + 1) * I * NS := by
  have hN := NS_pos
  rw [Int.tdiv_eq_ediv_of_nonneg hd, Int.tdiv_eq_ediv_of_nonneg (Int.ediv_nonneg hd hN.le)]
  generalize hs : d / NS = s
  generalize hq : s / I = q
  have h1 : s * NS ≤ d := by rw [← hs]; exact Int.ediv_mul_le d hN.ne'
  have h2 : d < (s + 1) * NS := by rw [← hs]; exact Int.lt_ediv_add_one_mul_self d hN
  have h3 : q * I ≤ s := by rw [← hq]; exact Int.ediv_mul_le s hI.ne'
  have h4 : s < (q + 1) * I := by rw [← hq]; exact Int.lt_ediv_add_one_mul_self s hI
  have h0 : 0 ≤ q := by rw [← hq, ← hs]; exact Int.ediv_nonneg (Int.ediv_nonneg hd hN.le) hI.le
  refine ⟨h0, ?_, ?_⟩
  · exact le_trans (Int.mul_le_mul_of_nonneg_right h3 hN.le) h1
  · exact lt_of_lt_of_le h2 (Int.mul_le_mul_of_nonneg_right (by omega) hN.le)

/-- C46: the timer is set for the first aligned instant after now, or for the start if that is still to come. -/
theorem C46_next (start I now : Int) (hI : 0 < I) :
    Aligned start I (next start I now) ∧ (now ≤ start → next start I now = start) ∧
    (start < now → now < next start I now ∧ ∀ t, Aligned start I t → now < t → next start I now ≤ t) := by
  by_cases h : now - start > 0
  · obtain ⟨h0, h1, h2⟩ := quot_spec (now - start) I (by omega) hI
    simp only [next, h, if_true]
    generalize ((now - start).tdiv NS).tdiv I = q at *
    refine ⟨⟨q.toNat + 1, ?_⟩, by omega, fun _ => ⟨by omega, ?_⟩⟩
    · have : ((q.toNat + 1 : Nat) : Int) = q + 1 := by omega
      rw [this]
    · rintro t ⟨k, rfl⟩ ht
      have h3 : q * I * NS < k * I * NS := by omega
      have h4 : q * I < k * I := lt_of_mul_lt_mul_right h3 NS_pos.le
      have h5 : q < k := lt_of_mul_lt_mul_right h4 hI.le
      have h6 : (q + 1) * I * NS ≤ k * I * NS :=
        Int.mul_le_mul_of_nonneg_right (Int.mul_le_mul_of_nonneg_right (by omega) hI.le) NS_pos.le
      omega
  · simp only [next, h, if_false]
    exact ⟨⟨0, by simp⟩, by simp, fun h' => by omega⟩

/-- Non-vacuity of `C46_next`: an interval of 15 minutes, set 100 s and 1 ns after midnight. -/
example : next 0 900 100000000001 = 900000000000 ∧ next 0 900 900000000000 = 1800000000000 ∧ next 50 900 20 = 50 := by decide

theorem next_in (start I t e : Int) (hI : 0 < I) (ht : Aligned start I t) (he : t ≤ e) (hs : start < e) (he' : e < t + I * NS) :
    next start I e = t + I * NS := by
  obtain ⟨_, _, h⟩ := C46_next start I e hI
  obtain ⟨h1, h2⟩ := h hs
  obtain ⟨⟨k', hk'⟩, _, _⟩ := C46_next start I e hI
  obtain ⟨k, rfl⟩ := ht
  have h3 : next start I e ≤ start + k * I * NS + I * NS := h2 _ ⟨k + 1, by push_cast; ring⟩ he'
  have h4 : (k : Int) * I * NS < k' * I * NS := by omega
  have h5 : (k : Int) < k' := lt_of_mul_lt_mul_right (lt_of_mul_lt_mul_right h4 NS_pos.le) hI.le
  have h6 : ((k : Int) + 1) * I * NS ≤ k' * I * NS :=
    Int.mul_le_mul_of_nonneg_right (Int.mul_le_mul_of_nonneg_right (by omega) hI.le) NS_pos.le
  have h7 : ((k : Int) + 1) * I * NS = k * I * NS + I * NS := by ring
  omega

/-- C46: over the whole life of the timer it fires at aligned instants only, and the next one is exactly an interval later as long as the
callback returns within an interval. -/
theorem C46_firings (start I now : Int) (ends : List Int) (hI : 0 < I) :
    (∀ t ∈ firings start I now ends, Aligned start I t) ∧
    (∀ (j : Nat) (t t' e : Int), (firings start I now ends)[j]? = some t → (firings start I now ends)[j + 1]? = some t' →
      ends[j]? = some e → t ≤ e → start < e → e < t + I * NS → t' = t + I * NS) := by
  have hal : ∀ t ∈ firings start I now ends, Aligned start I t := by
    intro t ht
    rcases List.mem_cons.mp ht with rfl | ht
    · exact (C46_next start I now hI).1
    · obtain ⟨e, _, rfl⟩ := List.mem_map.mp ht
      exact (C46_next start I e hI).1
  refine ⟨hal, ?_⟩
  intro j t t' e h1 h2 h3 h4 h5 h6
  have h7 : t' = next start I e := by
    simp only [firings, List.getElem?_cons_succ, List.getElem?_map, h3, Option.map_some, Option.some.injEq] at h2
    exact h2.symm
  rw [h7]
  exact next_in start I t e hI (hal t (List.mem_of_getElem? h1)) h4 h5 h6

/-- Non-vacuity of `C46_firings`. -/
example : firings 0 900 5 [900000000020, 1800000000001] = [900000000000, 1800000000000, 2700000000000] := by decide

/-- C46 violated: an instant is skipped if the callback takes longer than the interval. -/
theorem C46_late_violated : ∃ start I now e : Int, firings start I now [e] = [next start I now, next start I now + 2 * I * NS] :=
  ⟨0, 10, 5, 25000000000, by decide⟩

/-- C46: if the interval divides a day, the timer that is set for midnight fires at every midnight; the instants of each day are the same. -/
theorem C46_midnight_partial (start I : Int) (hI : 0 < I) (hd : I ∣ DAY) (d : Nat) : Aligned start I (start + d * DAY * NS) := by
  obtain ⟨c, hc⟩ := hd
  have hcp : 0 < c := by
    by_contra h
    have : I * c ≤ 0 := Int.mul_nonpos_of_nonneg_of_nonpos hI.le (by omega)
    have h2 : (0 : Int) < DAY := by decide
    omega
  refine ⟨d * c.toNat, ?_⟩
  have : (c.toNat : Int) = c := by omega
  rw [hc]; push_cast; rw [this]; ring

/-- C46 violated: if it does not, the timer is never realigned: it does not fire at the following midnight. -/
theorem C46_midnight_violated (start I : Int) (hd : ¬ I ∣ DAY) : ¬ Aligned start I (start + DAY * NS) := by
  rintro ⟨k, hk⟩
  apply hd
  refine ⟨k, ?_⟩
  have h1 : DAY * NS = (k * I) * NS := by omega
  have h2 := mul_right_cancel₀ NS_pos.ne' h1
  rw [h2]; ring

theorem midnight_le (t : Int) : midnight t ≤ t ∧ t < midnight t + DAY * NS := by
  have h : 0 < DAY * NS := by decide
  unfold midnight
  have h1 := Int.ediv_mul_le t h.ne'
  have h2 := Int.lt_ediv_add_one_mul_self t h
  have h3 : (t / (DAY * NS) + 1) * (DAY * NS) = t / (DAY * NS) * (DAY * NS) + DAY * NS := by ring
  omega

/-- C46: the time stamp of a clock-aligned value is rounded to the nearest multiple of the interval since midnight. -/
theorem C46_rounding (t I : Int) (hI : 0 < I) : ∃ r, alignTimestamp t I = some r ∧ (∃ k : Nat, r = midnight t + k * I * NS) ∧
    r - t ≤ I / 2 * NS ∧ t - r < (I - I / 2) * NS := by
  obtain ⟨m1, m2⟩ := midnight_le t
  have hN := NS_pos
  have h0 : 0 ≤ t - midnight t := by omega
  unfold alignTimestamp
  rw [if_neg (by omega), if_neg (by omega)]
  simp only
  refine ⟨_, rfl, ?_⟩
  have hs0 : 0 ≤ (t - midnight t) / NS := Int.ediv_nonneg h0 hN.le
  have hI2 : 0 ≤ I / 2 := by omega
  rw [Int.tdiv_eq_ediv_of_nonneg h0, Int.tdiv_eq_ediv_of_nonneg hI.le, Int.tdiv_eq_ediv_of_nonneg (by omega)]
  generalize hs : (t - midnight t) / NS = s at *
  generalize hh : I / 2 = h at *
  generalize hq : (s + h) / I = q
  have h1 : s * NS ≤ t - midnight t := by rw [← hs]; exact Int.ediv_mul_le _ hN.ne'
  have h2 : t - midnight t < (s + 1) * NS := by rw [← hs]; exact Int.lt_ediv_add_one_mul_self _ hN
  have h3 : q * I ≤ s + h := by rw [← hq]; exact Int.ediv_mul_le _ hI.ne'
  have h4 : s + h < (q + 1) * I := by rw [← hq]; exact Int.lt_ediv_add_one_mul_self _ hI
  have hq0 : 0 ≤ q := by rw [← hq]; exact Int.ediv_nonneg (by omega) hI.le
  refine ⟨⟨q.toNat, by rw [show (q.toNat : Int) = q by omega]⟩, ?_, ?_⟩
  · have : q * I * NS ≤ (s + h) * NS := Int.mul_le_mul_of_nonneg_right h3 hN.le
    have : (s + h) * NS = s * NS + h * NS := by ring
    omega
  · have h5 : s + 1 ≤ q * I + (I - h) := by
      have : (q + 1) * I = q * I + I := by ring
      omega
    have h6 : (s + 1) * NS ≤ (q * I + (I - h)) * NS := Int.mul_le_mul_of_nonneg_right h5 hN.le
    have h7 : (q * I + (I - h)) * NS = q * I * NS + (I - h) * NS := by ring
    omega

/-- C46: a value that is taken for an aligned instant, not later than half an interval after it and on the same day, gets that instant as time
stamp. -/
theorem C46_timestamp_partial (t now I : Int) (hI : 0 < I) (ht : ∃ k : Nat, t = midnight t + k * I * NS) (h1 : t ≤ now)
    (h2 : now < t + (I - I / 2) * NS) (hm : midnight now = midnight t) : alignTimestamp now I = some t := by
  obtain ⟨r, hr, ⟨k', hk'⟩, h3, h4⟩ := C46_rounding now I hI
  rw [hr]
  obtain ⟨k, hk⟩ := ht
  rw [hm] at hk'
  have hN := NS_pos
  have hI2 : 0 ≤ I / 2 := by omega
  have e1 : (I - I / 2) * NS = I * NS - I / 2 * NS := by ring
  have hp : 0 < I * NS := mul_pos hI hN
  have hpn : 0 ≤ I / 2 * NS := mul_nonneg hI2 hN.le
  have a1 : (k' : Int) * I * NS < (k + 1) * I * NS := by
    have : ((k : Int) + 1) * I * NS = k * I * NS + I * NS := by ring
    omega
  have a2 : (k : Int) * I * NS < (k' + 1) * I * NS := by
    have : ((k' : Int) + 1) * I * NS = k' * I * NS + I * NS := by ring
    omega
  have b1 : (k' : Int) < k + 1 := lt_of_mul_lt_mul_right (lt_of_mul_lt_mul_right a1 hN.le) hI.le
  have b2 : (k : Int) < k' + 1 := lt_of_mul_lt_mul_right (lt_of_mul_lt_mul_right a2 hN.le) hI.le
  have : k' = k := by omega
  subst this
  rw [hk', ← hk]

/-- Non-vacuity of `C46_rounding` and `C46_timestamp_partial`: 15 minutes, 200 ms late. -/
example : alignTimestamp 900200000000 900 = some 900000000000 ∧ midnight 900000000000 = 0 := by decide

/-- C46 violated: if the interval does not divide a day, the time stamps of the values of the second day are not the instants they are taken
for: with 7 hours, the value of 04:00 gets 07:00, three hours ahead. -/
theorem C46_timestamp_violated : ∃ I t : Int, Aligned 0 I t ∧ alignTimestamp t I = some (t + 3 * 3600 * NS) :=
  ⟨25200, 100800 * NS, ⟨4, by decide⟩, by decide⟩

/-! ## C47: reduction of StopTransaction.req -/

theorem pass_sublist (n i : Nat) (l : List α) : (pass n i l).Sublist l := by
  induction n generalizing i l with
  | zero => exact .refl _
  | succ n ih =>
    unfold pass
    split
    · exact (ih _ _).trans (List.eraseIdx_sublist _ _)
    · exact .refl _

theorem pass_ends (n i : Nat) (l : List α) (hi : 0 < i) : (pass n i l)[0]? = l[0]? ∧
    (pass n i l)[(pass n i l).length - 1]? = l[l.length - 1]? := by
  induction n generalizing i l with
  | zero => exact ⟨rfl, rfl⟩
  | succ n ih =>
    unfold pass
    split
    · rename_i h
      obtain ⟨h1, h2⟩ := ih (i + 2) (l.eraseIdx i) (by omega)
      have hl : (l.eraseIdx i).length = l.length - 1 := by rw [List.length_eraseIdx]; simp [show i < l.length by omega]
      rw [h1, h2, hl]
      constructor
      · rw [List.getElem?_eraseIdx]; simp [hi]
      · rw [List.getElem?_eraseIdx, if_neg (by omega)]
        congr 1; omega
    · exact ⟨rfl, rfl⟩

theorem pass_length (n i : Nat) (l : List α) (hn : l.length ≤ n + i) : (pass n i l).length = l.length - (l.length + 1 - i) / 3 := by
  induction n generalizing i l with
  | zero => unfold pass; omega
  | succ n ih =>
    unfold pass
    split
    · rename_i h
      have hl : (l.eraseIdx i).length = l.length - 1 := by rw [List.length_eraseIdx]; simp [show i < l.length by omega]
      rw [ih _ _ (by omega), hl]; omega
    · omega

/-- C47: the data that is sent is part of the data, in its order, with the first and the last value; it fits or has at most two values left;
it is all of it if that fits, and otherwise the last third that was left out was needed. -/
theorem C47_partial (size : List α → Nat) (max : Nat) (l : List α) :
    let r := dropLoop size max l.length l
    r.Sublist l ∧ r.head? = l.head? ∧ r.getLast? = l.getLast? ∧ (size r ≤ max ∨ r.length ≤ 2) ∧ (size l ≤ max → r = l) ∧
    (r ≠ l → ∃ l' : List α, l'.Sublist l ∧ r.Sublist l' ∧ size l' > max ∧ r.length = l'.length - l'.length / 3) := by
  have key : ∀ (n : Nat) (l : List α), l.length ≤ n →
      let r := dropLoop size max n l
      r.Sublist l ∧ (r[0]? = l[0]? ∧ r[r.length - 1]? = l[l.length - 1]?) ∧ (size r ≤ max ∨ r.length ≤ 2) ∧ (size l ≤ max → r = l) ∧
      (r ≠ l → ∃ l' : List α, l'.Sublist l ∧ r.Sublist l' ∧ size l' > max ∧ r.length = l'.length - l'.length / 3) := by
    intro n
    induction n with
    | zero =>
      intro l h
      exact ⟨.refl _, ⟨rfl, rfl⟩, .inr (by simp only [dropLoop]; omega), fun _ => rfl, fun hne => absurd rfl hne⟩
    | succ n ih =>
      intro l h
      simp only [dropLoop]
      by_cases hc : size l > max ∧ l.length > 2
      · rw [if_pos hc]
        have hlen : (pass l.length 1 l).length = l.length - l.length / 3 := by
          rw [pass_length _ _ _ (by omega)]; rfl
        have hsub := pass_sublist l.length 1 l
        have hends := pass_ends l.length 1 l (by omega)
        obtain ⟨h1, h2, h3, h4, h5⟩ := ih (pass l.length 1 l) (by omega)
        refine ⟨h1.trans hsub, ⟨h2.1.trans hends.1, h2.2.trans hends.2⟩, h3, fun hs => by omega, ?_⟩
        intro _
        by_cases hr : dropLoop size max n (pass l.length 1 l) = pass l.length 1 l
        · exact ⟨l, .refl _, by rw [hr]; exact hsub, hc.1, by rw [hr, hlen]⟩
        · obtain ⟨l', a, b, c, d⟩ := h5 hr
          exact ⟨l', a.trans hsub, b, c, d⟩
      · rw [if_neg hc]
        refine ⟨.refl _, ⟨rfl, rfl⟩, ?_, fun _ => rfl, fun hne => absurd rfl hne⟩
        by_cases hs : size l > max
        · right; by_contra h3; exact hc ⟨hs, by omega⟩
        · left; omega
  obtain ⟨h1, h2, h3, h4, h5⟩ := key l.length l (Nat.le_refl _)
  refine ⟨h1, ?_, ?_, h3, h4, h5⟩
  · rw [List.head?_eq_getElem?, List.head?_eq_getElem?]; exact h2.1
  · rw [List.getLast?_eq_getElem?, List.getLast?_eq_getElem?]; exact h2.2

/-- C47: a StopTransaction.req with meter values is reduced like that, and one that fits is sent as it is. -/
theorem C47_message_partial (size : Option (List α) → Nat) (max : Nat) (data : Option (List α)) :
    (size data ≤ max → stopTransaction size max data = some data) ∧
    (∀ l, data = some l → ∃ r, stopTransaction size max data = some (some r) ∧ r.Sublist l ∧ r.head? = l.head? ∧ r.getLast? = l.getLast?) := by
  constructor
  · intro h; unfold stopTransaction; rw [if_neg (by omega)]
  · rintro l rfl
    unfold stopTransaction
    split
    · obtain ⟨h1, h2, h3, _⟩ := C47_partial (fun x => size (some x)) max l
      exact ⟨_, rfl, h1, h2, h3⟩
    · exact ⟨l, rfl, .refl _, rfl, rfl⟩

/-- Non-vacuity of `C47_partial` and `C47_message_partial`: ten values, of which five fit. -/
example : dropLoop List.length 5 10 [0, 1, 2, 3, 4, 5, 6, 7, 8, 9] = [0, 3, 5, 8, 9] ∧
    pass 10 1 [0, 1, 2, 3, 4, 5, 6, 7, 8, 9] = [0, 2, 3, 5, 6, 8, 9] := by decide

/-- C47 violated: a message without meter values that is too large is not sent: an exception is thrown. -/
theorem C47_violated (size : Option (List α) → Nat) (max : Nat) (h : size none > max) : stopTransaction size max none = none := by
  simp [stopTransaction, h]

/-! ## C101: the meter values of TransactionEvent(Ended) -/

/-- The measurands that are reported of a value taken in a context, and whether signatures are. -/
inductive Config (c : Ended) : Ctx → List Nat → Bool → Prop
  | sampled {x} : x = .txBegin ∨ x = .txEnd ∨ x = .interruptionBegin ∨ x = .interruptionEnd ∨ x = .periodic → Config c x c.sampled c.signSampled
  | clock : Config c .clock c.aligned c.signAligned

/-- The meter value was taken in the context (of its first sample; the database has only values with one context, see C48). -/
def TakenIn (m : Meter) (x : Ctx) : Prop := ∃ s r, m.samples = s :: r ∧ s.context = some x

/-- `r` is the part of `m` with the measurands `ms`. -/
def PartOf (m r : Meter) (ms : List Nat) (signed : Bool) : Prop :=
  r.time = m.time ∧ r.samples ≠ [] ∧
  (∀ s', s' ∈ r.samples ↔ ∃ s ∈ m.samples, (∃ x ∈ ms, s.measurand = some x) ∧ s' = (if signed then s else { s with signed := none })) ∧
  (r.samples.map (fun s => (s.value, s.measurand))).Sublist (m.samples.map (fun s => (s.value, s.measurand)))

theorem applyOne_eq (ms : List Nat) (g : Bool) (s s' : Sample) :
    applyOne ms g s = some s' ↔ (∃ x ∈ ms, s.measurand = some x) ∧ s' = strip g s := by
  unfold applyOne
  cases s.measurand with
  | none => simp
  | some x =>
    by_cases hx : x ∈ ms
    · simp [hx, eq_comm]
    · simp [hx]

theorem mem_apply (m : Meter) (ms : List Nat) (g : Bool) (s' : Sample) : s' ∈ (apply m ms g).samples ↔
    ∃ s ∈ m.samples, (∃ x ∈ ms, s.measurand = some x) ∧ s' = (if g then s else { s with signed := none }) := by
  simp only [apply, List.mem_filterMap, applyOne_eq]
  rfl

theorem hasAny_iff (m : Meter) (ms : List Nat) : hasAny m ms = true ↔ ∃ s ∈ m.samples, ∃ x ∈ ms, s.measurand = some x := by
  simp [hasAny, List.any_eq_true]

theorem apply_partOf (m : Meter) (ms : List Nat) (g : Bool) (h : hasAny m ms = true) : PartOf m (apply m ms g) ms g := by
  refine ⟨rfl, ?_, mem_apply m ms g, ?_⟩
  · obtain ⟨s, hs, x, hx, hm⟩ := (hasAny_iff m ms).mp h
    intro hn
    have : (if g then s else { s with signed := none }) ∈ (apply m ms g).samples := (mem_apply _ _ _ _).mpr ⟨s, hs, ⟨x, hx, hm⟩, rfl⟩
    rw [hn] at this
    simp at this
  · simp only [apply]
    generalize m.samples = l
    induction l with
    | nil => simp
    | cons s l ih =>
      simp only [List.filterMap_cons, List.map_cons]
      cases ha : applyOne ms g s with
      | none => exact ih.trans (List.sublist_cons_self _ _)
      | some s' =>
        simp only [List.map_cons]
        have : (s'.value, s'.measurand) = (s.value, s.measurand) := by
          obtain ⟨_, rfl⟩ := (applyOne_eq _ _ _ _).mp ha
          cases g <;> rfl
        rw [this]
        exact ih.cons₂ _

theorem endedOne_some (c : Ended) (max : Int) (m r : Meter) (h : endedOne c max m = some r) :
    ∃ x ms g, TakenIn m x ∧ Config c x ms g ∧ m.time ≤ max ∧ PartOf m r ms g := by
  unfold endedOne at h
  cases hs : m.samples with
  | nil => rw [hs] at h; simp at h
  | cons s l =>
    rw [hs] at h
    simp only at h
    by_cases ht : m.time > max
    · simp [ht] at h
    · rw [if_neg ht] at h
      cases hc : s.context with
      | none => rw [hc] at h; simp at h
      | some x =>
        rw [hc] at h
        have htk : TakenIn m x := ⟨s, l, hs, hc⟩
        have fin : ∀ ms g, Config c x ms g → (if hasAny m ms then some (apply m ms g) else none) = some r →
            ∃ x ms g, TakenIn m x ∧ Config c x ms g ∧ m.time ≤ max ∧ PartOf m r ms g := by
          intro ms g hcf hh
          by_cases ha : hasAny m ms = true
          · simp only [ha, if_true, Option.some.injEq] at hh
            subst hh
            exact ⟨x, ms, g, htk, hcf, by omega, apply_partOf m ms g ha⟩
          · simp [ha] at hh
        cases x <;> simp only at h
        · exact fin _ _ (.sampled (by simp)) h
        · exact fin _ _ (.sampled (by simp)) h
        · simp at h
        · exact fin _ _ .clock h
        · exact fin _ _ (.sampled (by simp)) h
        · exact fin _ _ (.sampled (by simp)) h
        · exact fin _ _ (.sampled (by simp)) h
        · simp at h

theorem endedOne_of (c : Ended) (max : Int) (m : Meter) (x : Ctx) (ms : List Nat) (g : Bool) (h1 : TakenIn m x) (h2 : Config c x ms g)
    (h3 : m.time ≤ max) (h4 : ∃ s ∈ m.samples, ∃ y ∈ ms, s.measurand = some y) : endedOne c max m = some (apply m ms g) := by
  obtain ⟨s, l, hs, hc⟩ := h1
  have ha := (hasAny_iff m ms).mpr h4
  unfold endedOne
  rw [hs]
  simp only
  rw [if_neg (by omega), hc]
  cases h2 with
  | clock => simp [ha]
  | sampled h => rcases h with rfl | rfl | rfl | rfl | rfl <;> simp [ha]

/-- C101: TransactionEvent(Ended) reports, in the order they were stored and up to the end of the transaction, exactly the samples whose measurand is
configured for the kind of value (sampled or clock-aligned), with signatures only if that is configured, otherwise unchanged. -/
theorem C101 (c : Ended) (max : Int) (l : List Meter) :
    (∀ r ∈ ended c max l, ∃ m ∈ l, ∃ x ms g, TakenIn m x ∧ Config c x ms g ∧ m.time ≤ max ∧ PartOf m r ms g) ∧
    (∀ m ∈ l, ∀ x ms g, TakenIn m x → Config c x ms g → m.time ≤ max → (∃ s ∈ m.samples, ∃ y ∈ ms, s.measurand = some y) →
      ∃ r ∈ ended c max l, PartOf m r ms g) ∧
    ((ended c max l).map (·.time)).Sublist (l.map (·.time)) := by
  refine ⟨?_, ?_, ?_⟩
  · intro r hr
    obtain ⟨m, hm, h⟩ := List.mem_filterMap.mp hr
    exact ⟨m, hm, endedOne_some c max m r h⟩
  · intro m hm x ms g h1 h2 h3 h4
    exact ⟨_, List.mem_filterMap.mpr ⟨m, hm, endedOne_of c max m x ms g h1 h2 h3 h4⟩, apply_partOf m ms g ((hasAny_iff m ms).mpr h4)⟩
  · unfold ended
    induction l with
    | nil => simp
    | cons m l ih =>
      simp only [List.filterMap_cons, List.map_cons]
      cases h : endedOne c max m with
      | none => exact ih.trans (List.sublist_cons_self _ _)
      | some r =>
        obtain ⟨_, _, _, _, _, _, hp⟩ := endedOne_some c max m r h
        simp only [List.map_cons, hp.1]
        exact ih.cons₂ _

/-- Non-vacuity of `C101`. -/
example : ended { sampled := [4], aligned := [1] } 10
    [⟨5, [⟨7, some 4, some .txBegin, none, none, some ⟨1, 1, none, none⟩, none, none⟩, ⟨230, some 1, some .txBegin, none, none, none, none, none⟩]⟩,
     ⟨6, [⟨231, some 1, some .clock, none, none, none, none, none⟩]⟩, ⟨6, [⟨8, some 4, some .trigger, none, none, none, none, none⟩]⟩,
     ⟨11, [⟨9, some 4, some .txEnd, none, none, none, none, none⟩]⟩] =
    [⟨5, [⟨7, some 4, some .txBegin, none, none, none, none, none⟩]⟩, ⟨6, [⟨231, some 1, some .clock, none, none, none, none, none⟩]⟩] := by
  decide +kernel

end Verif.Met
