import Verif.Wire.Time
import Mathlib.Tactic.NormNum

/-!
C108: times as texts.
-/

namespace Verif.Wire

/-- The times of the years 0000 to 9999, in milliseconds since 1970. -/
def FourDigits (t : Int) : Prop := -62167219200000 ≤ t ∧ t < 253402300800000

theorem dateOfDays_facts (z : Int) (hz : -719528 ≤ z ∧ z < 2932897) : ∃ y m d : Int, dateOfDays z = (y, m, d) ∧ daysOfDate y m d = z ∧
    0 ≤ y ∧ y ≤ 9999 ∧ 1 ≤ m ∧ m ≤ 12 ∧ 1 ≤ d ∧ d ≤ monthDays y.toNat m.toNat := by
  refine ⟨_, _, _, rfl, ?_⟩
  simp only [daysOfDate]
  generalize hdoe : (z + 719468) % 146097 = doe
  have hd0 : 0 ≤ doe ∧ doe ≤ 146096 := by omega
  generalize hera : (z + 719468) / 146097 = era
  have hz' : z = 146097 * era + doe - 719468 := by omega
  generalize hc : min (doe / 36524) 3 = c
  have hc' : 0 ≤ c ∧ c ≤ 3 ∧ 0 ≤ doe - 36524 * c ∧ doe - 36524 * c ≤ 36524 ∧ (c < 3 → doe - 36524 * c < 36524) := by omega
  generalize hr : doe - 36524 * c = r at *
  generalize hq : r / 1461 = q
  have hq' : 0 ≤ q ∧ q ≤ 24 ∧ 0 ≤ r - 1461 * q ∧ r - 1461 * q ≤ 1460 := by omega
  generalize hs : r - 1461 * q = s at *
  generalize ha : min (s / 365) 3 = a
  have ha' : 0 ≤ a ∧ a ≤ 3 ∧ 0 ≤ s - 365 * a ∧ s - 365 * a ≤ 365 ∧ (a < 3 → s - 365 * a < 365) := by omega
  generalize hdoy : s - 365 * a = doy at *
  generalize hmp : (5 * doy + 2) / 153 = mp
  have hmp' : 0 ≤ mp ∧ mp ≤ 11 := by omega
  have hd1 : 1 ≤ doy - (153 * mp + 2) / 5 + 1 := by omega
  have hy : (era * 400 + 100 * c + 4 * q + a) % 400 = 100 * c + 4 * q + a := by omega
  have hy2 : (era * 400 + 100 * c + 4 * q + a) / 400 = era := by omega
  have hy4 : (100 * c + 4 * q + a) / 4 = 25 * c + q := by omega
  have hy100 : (100 * c + 4 * q + a) / 100 = c := by omega
  have hleap : doy = 365 → a = 3 ∧ (q = 24 → c = 3) := by omega
  have hera0 : -1 ≤ era ∧ era ≤ 24 := by omega
  have hlow : era = -1 → c = 3 ∧ q = 24 ∧ a = 3 ∧ 10 ≤ mp := by
    intro h
    have h1 : 146037 ≤ doe := by omega
    have h2 : c = 3 := by omega
    have h3 : q = 24 := by omega
    have h4 : a = 3 := by omega
    exact ⟨h2, h3, h4, by omega⟩
  have hhigh : era = 24 → c = 3 → q = 24 → a = 3 → mp < 10 := by intro h h1 h2 h3; omega
  by_cases hlt : mp < 10
  · have h2 : ¬ mp + 3 ≤ 2 := by omega
    have h3 : mp + 3 > 2 := by omega
    have e : mp + 3 - 3 = mp := by omega
    simp only [if_pos hlt, if_neg h2, if_pos h3, hy, hy2, hy4, hy100, e]
    refine ⟨by omega, ?_, ?_, by omega, by omega, hd1, ?_⟩
    · rcases Int.lt_or_le era 0 with h | h
      · have := hlow (by omega); omega
      · omega
    · omega
    · generalize era * 400 + 100 * c + 4 * q + a = y
      have : mp = 0 ∨ mp = 1 ∨ mp = 2 ∨ mp = 3 ∨ mp = 4 ∨ mp = 5 ∨ mp = 6 ∨ mp = 7 ∨ mp = 8 ∨ mp = 9 := by omega
      rcases this with h | h | h | h | h | h | h | h | h | h <;> subst h <;> simp [monthDays] <;> omega
  · have h2 : mp - 9 ≤ 2 := by omega
    have h3 : ¬ mp - 9 > 2 := by omega
    have e : era * 400 + 100 * c + 4 * q + a + 1 - 1 = era * 400 + 100 * c + 4 * q + a := by omega
    have e2 : mp - 9 + 9 = mp := by omega
    simp only [if_neg hlt, if_pos h2, if_neg h3, e, hy, hy2, hy4, hy100, e2]
    have hy0 : 0 ≤ era * 400 + 100 * c + 4 * q + a + 1 := by
      rcases Int.lt_or_le era 0 with h | h
      · have := hlow (by omega); omega
      · omega
    refine ⟨by omega, hy0, ?_, by omega, by omega, hd1, ?_⟩
    · rcases Int.lt_or_le era 24 with h | h
      · omega
      · by_cases h1 : c = 3 ∧ q = 24 ∧ a = 3
        · exact absurd (hhigh (by omega) h1.1 h1.2.1 h1.2.2) hlt
        · omega
    · have : mp = 10 ∨ mp = 11 := by omega
      rcases this with h | h
      · subst h
        simp [monthDays]; omega
      · subst h
        have hN : ∃ n : Nat, era * 400 + 100 * c + 4 * q + a + 1 = n := ⟨_, (Int.toNat_of_nonneg hy0).symm⟩
        obtain ⟨n, hn⟩ := hN
        rw [hn]
        simp only [Int.toNat_natCast, monthDays]
        have : ((11 : Int) - 9).toNat = 2 := rfl
        simp only [this, if_true]
        by_cases hd : doy = 365
        · have := hleap hd
          have h4 : n % 4 = 0 ∧ (n % 100 ≠ 0 ∨ n % 400 = 0) := by
            obtain ⟨h5, h6⟩ := this
            subst h5
            refine ⟨by omega, ?_⟩
            by_cases h7 : q = 24
            · have := h6 h7; right; omega
            · left; omega
          rw [if_pos h4]; omega
        · split <;> omega

theorem readDigit_digit {d : Nat} (h : d < 10) : readDigit (digit d) = some d := by
  have : ∀ d : Fin 10, readDigit (digit d.val) = some d.val := by decide
  exact this ⟨d, h⟩

theorem readDigits_succ (k n : Nat) (l : List Char) : readDigits (k + 1) n l = (readDigits k n l).bind (fun p => readDigits 1 p.1 p.2) := by
  induction k generalizing n l with
  | zero => rfl
  | succ k ih =>
    cases l with
    | nil => rfl
    | cons c r =>
      cases h : readDigit c with
      | none => simp [readDigits, h]
      | some x =>
        have h1 : ∀ k, readDigits (k + 1) n (c :: r) = readDigits k (10 * n + x) r := fun k => by simp [readDigits, h]
        rw [h1, h1]
        exact ih _ _

theorem readDigits_digits (k n x : Nat) (l : List Char) (h : x < 10 ^ k) : readDigits k n (digits k x ++ l) = some (n * 10 ^ k + x, l) := by
  induction k generalizing x l with
  | zero => simp at h; subst h; simp [readDigits, digits]
  | succ k ih =>
    have hx : x / 10 < 10 ^ k := by rw [Nat.pow_succ] at h; omega
    rw [readDigits_succ, digits, List.append_assoc, ih (x / 10) _ hx]
    simp only [List.cons_append, List.nil_append, Option.bind_some, readDigits, readDigit_digit (Nat.mod_lt x (by decide : 10 > 0))]
    rw [Nat.pow_succ]
    have : n * (10 ^ k * 10) = 10 * (n * 10 ^ k) := by rw [← Nat.mul_assoc, Nat.mul_comm]
    simp only [Option.some.injEq, Prod.mk.injEq, and_true]
    omega

theorem readFraction_digits (x : Nat) (l : List Char) (h : x < 1000) (hl : ∀ c r, l = c :: r → readDigit c = none) :
    readFraction 100000000 (digits 3 x ++ l) = (x * 1000000, l) := by
  have e : readFraction 100000 l = (0, l) := by
    cases l with
    | nil => rfl
    | cons c r => simp [readFraction, hl c r rfl]
  have h1 : x / 10 / 10 % 10 < 10 := Nat.mod_lt _ (by decide)
  have h2 : x / 10 % 10 < 10 := Nat.mod_lt _ (by decide)
  have h3 : x % 10 < 10 := Nat.mod_lt _ (by decide)
  simp only [digits, List.nil_append, List.cons_append, readFraction, readDigit_digit h1, readDigit_digit h2, readDigit_digit h3]
  norm_num [e]
  omega

theorem expect_self (c : Char) (l : List Char) : expect c ([c] ++ l) = some l := by simp [expect]

/-- A text that begins with a formatted time: the time is read, less the offset of the rest. -/
theorem parse_formatUtc (t : Int) (ht : FourDigits t) (z : List Char) (hz : ∀ c r, z = c :: r → readDigit c = none) :
    parseTime (formatUtc t ++ z) = some (t - readZone z) := by
  obtain ⟨y, m, d, hd, hdays, hy0, hy1, hm0, hm1, hd0, hd1⟩ := dateOfDays_facts (t / 86400000) (by unfold FourDigits at ht; omega)
  obtain ⟨y, rfl⟩ := Int.eq_ofNat_of_zero_le hy0
  obtain ⟨m, rfl⟩ := Int.eq_ofNat_of_zero_le (by omega : 0 ≤ m)
  obtain ⟨d, rfl⟩ := Int.eq_ofNat_of_zero_le (by omega : 0 ≤ d)
  simp only [Int.toNat_natCast] at hd1
  have hmd : monthDays y m ≤ 31 := by unfold monthDays; split <;> split <;> omega
  have hms : ∃ ms : Nat, t % 86400000 = ms ∧ ms < 86400000 := ⟨(t % 86400000).toNat, by omega, by omega⟩
  obtain ⟨ms, hms, hlt⟩ := hms
  unfold formatUtc parseTime
  simp only [hd, hms, Int.toNat_natCast, List.append_assoc]
  rw [readDigits_digits 4 0 y _ (by omega), Option.bind_some]
  dsimp only
  rw [expect_self, Option.bind_some, readDigits_digits 2 0 m _ (by omega), Option.bind_some]
  dsimp only
  rw [expect_self, Option.bind_some, readDigits_digits 2 0 d _ (by omega), Option.bind_some]
  dsimp only
  rw [expect_self, Option.bind_some, readDigits_digits 2 0 (ms / 3600000) _ (by omega), Option.bind_some]
  dsimp only
  rw [expect_self, Option.bind_some, readDigits_digits 2 0 (ms / 60000 % 60) _ (by omega), Option.bind_some]
  dsimp only
  rw [expect_self, Option.bind_some, readDigits_digits 2 0 (ms / 1000 % 60) _ (by omega), Option.bind_some]
  dsimp only
  rw [Nat.zero_mul, Nat.zero_mul, Nat.zero_add, Nat.zero_add, Nat.zero_add, Nat.zero_add, Nat.zero_add, Nat.zero_add]
  have hv : 1 ≤ m ∧ m ≤ 12 ∧ 1 ≤ d ∧ d ≤ monthDays y m ∧ ms / 3600000 < 24 ∧ ms / 60000 % 60 < 60 ∧ ms / 1000 % 60 < 60 := by omega
  rw [if_pos hv]
  simp only [List.cons_append, List.nil_append, readFraction_digits (ms % 1000) z (by omega) hz, hdays, Option.some.injEq]
  omega

/-- C108: a time of the years 0000 to 9999 is read from its text as it was, to the millisecond. -/
theorem C108 (t : Int) (ht : FourDigits t) : rfc3339.read (rfc3339.write t) = some t := by
  have := parse_formatUtc t ht ['Z'] (by intro c r h; simp at h; obtain ⟨rfl, _⟩ := h; decide)
  simp only [rfc3339, String.toList_ofList, formatTime, this]
  have : readZone ['Z'] = 0 := rfl
  simp [this]

/-- C108: a text with an offset of hours and minutes to UTC is the time less or more the offset. -/
theorem C108_offset (t : Int) (ht : FourDigits t) (h m : Nat) (hh : h < 100) (hm : m < 100) :
    rfc3339.read (String.ofList (formatUtc t ++ '+' :: digits 2 h ++ ':' :: digits 2 m)) = some (t - (h * 60 + m) * 60000) ∧
    rfc3339.read (String.ofList (formatUtc t ++ '-' :: digits 2 h ++ ':' :: digits 2 m)) = some (t + (h * 60 + m) * 60000) := by
  simp only [rfc3339, String.toList_ofList, List.append_assoc, List.cons_append]
  have e := readDigits_digits 2 0 m [] (by omega)
  rw [List.append_nil] at e
  constructor
  · rw [parse_formatUtc t ht _ (by intro c r h; simp at h; obtain ⟨rfl, _⟩ := h; decide)]
    simp only [readZone, readDigits_digits 2 0 h _ (by omega : h < 10 ^ 2), Option.bind_some, expect, if_true, e, Option.map_some, Option.getD_some]
    rw [Option.some.injEq]; omega
  · rw [parse_formatUtc t ht _ (by intro c r h; simp at h; obtain ⟨rfl, _⟩ := h; decide)]
    simp only [readZone, readDigits_digits 2 0 h _ (by omega : h < 10 ^ 2), Option.bind_some, expect, if_true, e, Option.map_some, Option.getD_some]
    rw [Option.some.injEq]; omega

/-- The time of the end of a leap day. -/
example : FourDigits 1709251199999 ∧ rfc3339.write 1709251199999 = "2024-02-29T23:59:59.999Z" := by
  refine ⟨by unfold FourDigits; omega, by decide +kernel⟩

example : FourDigits (-62167219200000) ∧ rfc3339.write (-62167219200000) = "0000-01-01T00:00:00.000Z" := by
  refine ⟨by unfold FourDigits; omega, by decide +kernel⟩

example : rfc3339.read "2024-02-29T12:00:00+02:00" = rfc3339.read "2024-02-29T10:00:00Z" := by decide +kernel

/-- C108: two different times of those years have different texts. -/
theorem C108_distinct (t u : Int) (ht : FourDigits t) (hu : FourDigits u) (h : rfc3339.write t = rfc3339.write u) : t = u := by
  have h1 := C108 t ht
  rw [h, C108 u hu] at h1
  exact (Option.some.inj h1).symm

/-- C108: what follows the time in a text is not checked: a text with an offset the library does not understand is read as UTC instead of being
refused. -/
theorem C108_violated : rfc3339.read "2024-02-29T12:00:00 local time" = rfc3339.read "2024-02-29T12:00:00Z" ∧
    (rfc3339.read "2024-02-29T12:00:00 local time").isSome := by
  decide +kernel

end Verif.Wire
