import Verif.Monitor.Store
import Verif.DeviceModel.Text
import Mathlib.Tactic.Linarith
import Mathlib.Data.Rat.Floor
/-
The text that `std::to_string` makes of a number, read again.
-/
namespace Verif.Mon

open Verif.DM (Str Digits decimalNumber IsUnsignedDecimalText IsDecimalText)

theorem digitChar (n : Nat) (h : n < 10) :
    '0' ≤ Char.ofNat (48 + n) ∧ Char.ofNat (48 + n) ≤ '9' ∧ (Char.ofNat (48 + n)).toNat = 48 + n := by
  have : n = 0 ∨ n = 1 ∨ n = 2 ∨ n = 3 ∨ n = 4 ∨ n = 5 ∨ n = 6 ∨ n = 7 ∨ n = 8 ∨ n = 9 := by omega
  rcases this with h | h | h | h | h | h | h | h | h | h <;> subst h <;> decide

theorem decimalNumber_append (a b : Str) : decimalNumber (a ++ b) = decimalNumber a * 10 ^ b.length + decimalNumber b := by
  induction a with
  | nil => simp [decimalNumber]
  | cons c r ih =>
    simp only [List.cons_append, decimalNumber, ih, List.length_append, Nat.pow_add]
    rw [Nat.add_mul, Nat.mul_assoc]; omega

theorem digitsAux_spec (fuel : Nat) : ∀ n, n < fuel →
    Digits (digitsAux fuel n) ∧ decimalNumber (digitsAux fuel n) = n ∧ digitsAux fuel n ≠ [] := by
  induction fuel with
  | zero => intro n h; omega
  | succ f ih =>
    intro n h
    simp only [digitsAux]
    split
    · rename_i hn
      obtain ⟨h1, h2, h3⟩ := digitChar n hn
      refine ⟨?_, ?_, by simp⟩
      · intro c hc; simp only [List.mem_singleton] at hc; subst hc; exact ⟨h1, h2⟩
      · simp only [decimalNumber, h3]; simp
    · obtain ⟨h1, h2, h3⟩ := digitChar (n % 10) (by omega)
      obtain ⟨i1, i2, i3⟩ := ih (n / 10) (by omega)
      refine ⟨?_, ?_, by simp⟩
      · intro c hc
        rcases List.mem_append.mp hc with hc | hc
        · exact i1 c hc
        · simp only [List.mem_singleton] at hc; subst hc; exact ⟨h1, h2⟩
      · rw [decimalNumber_append, i2]; simp only [decimalNumber, h3]; simp; omega

theorem digits_spec (n : Nat) : Digits (digits n) ∧ decimalNumber (digits n) = n ∧ digits n ≠ [] :=
  digitsAux_spec (n + 1) n (by omega)

theorem digitsAux_length (k : Nat) : ∀ fuel n, n < fuel → n < 10 ^ (k + 1) → (digitsAux fuel n).length ≤ k + 1 := by
  induction k with
  | zero =>
    intro fuel n h1 h2
    cases fuel with
    | zero => omega
    | succ f => simp only [digitsAux]; rw [if_pos (by simpa using h2)]; simp
  | succ k ih =>
    intro fuel n h1 h2
    cases fuel with
    | zero => omega
    | succ f =>
      simp only [digitsAux]
      split
      · simp
      · have := ih f (n / 10) (by omega) (by rw [Nat.pow_succ] at h2; omega)
        simp; omega

theorem zeros_number (k : Nat) (r : Str) : decimalNumber (List.replicate k '0' ++ r) = decimalNumber r := by
  induction k with
  | zero => simp
  | succ k ih => simp [List.replicate_succ, decimalNumber, ih]

theorem six_spec (n : Nat) (h : n < 1000000) :
    Digits (sixDigits n) ∧ decimalNumber (sixDigits n) = n ∧ (sixDigits n).length = 6 := by
  obtain ⟨h1, h2, _⟩ := digits_spec n
  have hl := digitsAux_length 5 (n + 1) n (by omega) (by simpa using h)
  refine ⟨?_, ?_, ?_⟩
  · intro c hc
    rcases List.mem_append.mp hc with hc | hc
    · rw [List.mem_replicate] at hc; rw [hc.2]; decide
    · exact h1 c hc
  · unfold sixDigits; rw [zeros_number, h2]
  · simp only [sixDigits, List.length_append, List.length_replicate]
    have : (digits n).length ≤ 6 := hl
    omega

/-- The text without sign of a number of millionths. -/
theorem micro_text (n : Nat) :
    IsUnsignedDecimalText (digits (n / 1000000) ++ '.' :: sixDigits (n % 1000000)) ((n : Rat) / 1000000) := by
  obtain ⟨h1, h2, h3⟩ := digits_spec (n / 1000000)
  obtain ⟨k1, k2, k3⟩ := six_spec (n % 1000000) (by omega)
  refine .inr ⟨_, _, rfl, h1, k1, .inl h3, ?_⟩
  rw [h2, k2, k3]
  have : (n : Rat) = 1000000 * ((n / 1000000 : Nat) : Rat) + ((n % 1000000 : Nat) : Rat) := by
    exact_mod_cast (Nat.div_add_mod n 1000000).symm
  rw [this]
  push_cast
  ring

/-- The text `std::to_string` makes of a multiple of a millionth stands for that number. -/
theorem floatText_spec (k : Int) : IsDecimalText (floatText ((k : Rat) / 1000000)) ((k : Rat) / 1000000) := by
  unfold floatText
  have half : ∀ n : Nat, ((((n : Rat) / 1000000) * 1000000 + 1 / 2).floor).toNat = n := by
    intro n
    have : ((((n : Rat) / 1000000) * 1000000 + 1 / 2).floor) = (n : Int) := by
      rw [show (((n : Rat) / 1000000) * 1000000 + 1 / 2).floor = ⌊(((n : Rat) / 1000000) * 1000000 + 1 / 2)⌋ from rfl]
      rw [Int.floor_eq_iff]
      constructor
      · push_cast; linarith [show ((n : Rat) / 1000000) * 1000000 = n by ring]
      · push_cast; linarith [show ((n : Rat) / 1000000) * 1000000 = n by ring]
    rw [this]; simp
  by_cases hk : ((k : Rat) / 1000000) < 0
  · have hk' : k < 0 := by
      by_contra h
      have : (0 : Rat) ≤ k := by exact_mod_cast not_lt.mp h
      have : (0 : Rat) ≤ (k : Rat) / 1000000 := by positivity
      linarith
    obtain ⟨n, hn⟩ := Int.eq_ofNat_of_zero_le (show 0 ≤ -k by omega)
    have e : -((k : Rat) / 1000000) = (n : Rat) / 1000000 := by
      have : (k : Rat) = -(n : Rat) := by
        have : k = -(n : Int) := by omega
        rw [this]; push_cast; ring
      rw [this]; ring
    simp only [hk, if_true, e, half]
    refine .inr (.inr ⟨_, (n : Rat) / 1000000, rfl, micro_text n, ?_⟩)
    linarith
  · have hk' : 0 ≤ k := by
      by_contra h
      have : (k : Rat) < 0 := by exact_mod_cast not_le.mp h
      exact hk (by linarith)
    obtain ⟨n, hn⟩ := Int.eq_ofNat_of_zero_le hk'
    have e : (k : Rat) / 1000000 = (n : Rat) / 1000000 := by rw [hn]; push_cast; rfl
    rw [e] at hk ⊢
    simp only [hk, if_false, half, List.nil_append]
    exact .inl (micro_text n)

end Verif.Mon
