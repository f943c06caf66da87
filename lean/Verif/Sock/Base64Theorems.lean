import Verif.Sock.Base64

/-
C148: the basic authentication header.
-/
namespace Verif.Sock

/-! ## Specification: RFC 4648 section 4 -/

/-- The alphabet of RFC 4648, table 1. -/
def rfcChar (d : Nat) : Char :=
  if d < 26 then Char.ofNat (65 + d)
  else if d < 52 then Char.ofNat (97 + (d - 26))
  else if d < 62 then Char.ofNat (48 + (d - 52))
  else if d = 62 then '+' else '/'

/-- The digit of weight `64 ^ k` of a 24-bit group. -/
def digit (v k : Nat) : Char := rfcChar (v / 64 ^ k % 64)

/-- RFC 4648: 24-bit groups as four 6-bit digits; a last group of 8 bits becomes two digits and `==`, one of 16 bits
three digits and `=`. -/
def rfcBase64 : Bytes → List Char
  | a :: b :: c :: r =>
    let v := a * 65536 + b * 256 + c
    [digit v 3, digit v 2, digit v 1, digit v 0] ++ rfcBase64 r
  | [a, b] =>
    let v := a * 65536 + b * 256
    [digit v 3, digit v 2, digit v 1, '=']
  | [a] =>
    let v := a * 65536
    [digit v 3, digit v 2, '=', '=']
  | [] => []

/-- Every element is a byte. -/
def IsBytes (l : Bytes) : Prop := ∀ b ∈ l, b < 256

/-! ## Lemmas -/

theorem charAt_eq : ∀ d, d < 64 → charAt d = rfcChar d := by decide +kernel

theorem bit1 : ∀ a, a < 256 → ((a &&& 0xfc) >>> 2) % 256 = a / 4 := by decide +kernel
theorem bit2 : ∀ a, a < 256 → (a &&& 0x03) <<< 4 = a % 4 * 16 := by decide +kernel
theorem bit3 : ∀ a, a < 256 → (a &&& 0xf0) >>> 4 = a / 16 := by decide +kernel
theorem bit4 : ∀ a, a < 256 → (a &&& 0x0f) <<< 2 = a % 16 * 4 := by decide +kernel
theorem bit5 : ∀ a, a < 256 → (a &&& 0xc0) >>> 6 = a / 64 := by decide +kernel
theorem bit6 : ∀ a, a < 256 → a &&& 0x3f = a % 64 := by decide +kernel

theorem quad_eq (a b c : Nat) (ha : a < 256) (hb : b < 256) (hc : c < 256) :
    quad a b c = [a / 4, a % 4 * 16 + b / 16, b % 16 * 4 + c / 64, c % 64] := by
  simp only [quad, bit1 a ha, bit2 a ha, bit3 b hb, bit4 b hb, bit5 c hc, bit6 c hc]
  have h1 : (a % 4 * 16 + b / 16) % 256 = a % 4 * 16 + b / 16 := by omega
  have h2 : (b % 16 * 4 + c / 64) % 256 = b % 16 * 4 + c / 64 := by omega
  rw [h1, h2]

theorem quad_digits (a b c : Nat) (ha : a < 256) (hb : b < 256) (hc : c < 256) :
    (quad a b c).map charAt =
      [digit (a * 65536 + b * 256 + c) 3, digit (a * 65536 + b * 256 + c) 2,
       digit (a * 65536 + b * 256 + c) 1, digit (a * 65536 + b * 256 + c) 0] := by
  rw [quad_eq a b c ha hb hc]
  simp only [List.map_cons, List.map_nil, digit]
  rw [charAt_eq _ (by omega), charAt_eq _ (by omega), charAt_eq _ (by omega), charAt_eq _ (by omega)]
  have e3 : (a * 65536 + b * 256 + c) / 64 ^ 3 % 64 = a / 4 := by omega
  have e2 : (a * 65536 + b * 256 + c) / 64 ^ 2 % 64 = a % 4 * 16 + b / 16 := by omega
  have e1 : (a * 65536 + b * 256 + c) / 64 ^ 1 % 64 = b % 16 * 4 + c / 64 := by omega
  have e0 : (a * 65536 + b * 256 + c) / 64 ^ 0 % 64 = c % 64 := by omega
  rw [e3, e2, e1, e0]

theorem IsBytes.tail {a : Nat} {l : Bytes} (h : IsBytes (a :: l)) : IsBytes l :=
  fun b hb => h b (List.mem_cons_of_mem a hb)

theorem IsBytes.head {a : Nat} {l : Bytes} (h : IsBytes (a :: l)) : a < 256 := h a (by simp)

theorem encode_rfc : ∀ l, IsBytes l → base64Encode l = rfcBase64 l
  | [], _ => rfl
  | [a], h => by
    have := quad_digits a 0 0 h.head (by decide) (by decide)
    simp only [Nat.zero_mul, Nat.add_zero] at this
    rw [base64Encode, rfcBase64, List.map_take, this]
    simp only [List.take, List.cons_append, List.nil_append]
  | [a, b], h => by
    have := quad_digits a b 0 h.head h.tail.head (by decide)
    simp only [Nat.add_zero] at this
    rw [base64Encode, rfcBase64, List.map_take, this]
    simp only [List.take, List.cons_append, List.nil_append]
  | a :: b :: c :: r, h => by
    rw [base64Encode, rfcBase64, quad_digits a b c h.head h.tail.head h.tail.tail.head, encode_rfc r h.tail.tail.tail]

theorem index_charAt : ∀ d, d < 64 → indexOfChar (charAt d) = d := by decide +kernel

theorem good_charAt : ∀ d, d < 64 → (charAt d = '=' || !isBase64 (charAt d)) = false := by decide +kernel

theorem bit7 : ∀ a, a < 64 → (a &&& 0x30) >>> 4 = a / 16 := by decide +kernel
theorem bit8 : ∀ a, a < 64 → (a &&& 0xf) <<< 4 = a % 16 * 16 := by decide +kernel
theorem bit9 : ∀ a, a < 64 → (a &&& 0x3c) >>> 2 = a / 4 := by decide +kernel
theorem bit10 : ∀ a, a < 64 → (a &&& 0x3) <<< 6 = a % 4 * 64 := by decide +kernel
theorem bit11 : ∀ a, a < 64 → a <<< 2 = a * 4 := by decide +kernel

theorem decode_four (p q r s : Nat) (hp : p < 64) (hq : q < 64) (hr : r < 64) (hs : s < 64) (t : List Char) :
    decodeLoop [] (charAt p :: charAt q :: charAt r :: charAt s :: t) = triple p q r s ++ decodeLoop [] t := by
  simp only [decodeLoop, good_charAt p hp, good_charAt q hq, good_charAt r hr, good_charAt s hs, List.nil_append,
    List.cons_append, index_charAt p hp, index_charAt q hq, index_charAt r hr, index_charAt s hs, Bool.false_eq_true,
    if_false]

theorem decode_three (p q r : Nat) (hp : p < 64) (hq : q < 64) (hr : r < 64) (t : List Char) :
    decodeLoop [] (charAt p :: charAt q :: charAt r :: '=' :: t) = (triple p q r 255).take 2 := by
  simp only [decodeLoop, good_charAt p hp, good_charAt q hq, good_charAt r hr, List.nil_append, List.cons_append,
    Bool.false_eq_true, if_false]
  simp [decodeTail, index_charAt p hp, index_charAt q hq, index_charAt r hr, triple]

theorem decode_two (p q : Nat) (hp : p < 64) (hq : q < 64) (t : List Char) :
    decodeLoop [] (charAt p :: charAt q :: '=' :: t) = (triple p q 255 255).take 1 := by
  simp only [decodeLoop, good_charAt p hp, good_charAt q hq, List.nil_append, List.cons_append,
    Bool.false_eq_true, if_false]
  simp [decodeTail, index_charAt p hp, index_charAt q hq, triple]

theorem triple_eq (p q r s : Nat) (hp : p < 64) (hq : q < 64) (hr : r < 64) (hs : s < 64) :
    triple p q r s = [p * 4 + q / 16, q % 16 * 16 + r / 4, r % 4 * 64 + s] := by
  simp only [triple, bit7 q hq, bit8 q hq, bit9 r hr, bit10 r hr, bit11 p hp]
  have h1 : (p * 4 + q / 16) % 256 = p * 4 + q / 16 := by omega
  have h2 : (q % 16 * 16 + r / 4) % 256 = q % 16 * 16 + r / 4 := by omega
  have h3 : (r % 4 * 64 + s) % 256 = r % 4 * 64 + s := by omega
  rw [h1, h2, h3]

theorem take_two_triple (p q r s : Nat) (hp : p < 64) (hq : q < 64) (hr : r < 64) :
    (triple p q r s).take 2 = [p * 4 + q / 16, q % 16 * 16 + r / 4] := by
  have := triple_eq p q r 0 hp hq hr (by decide)
  simp only [triple, List.cons.injEq] at this
  simp only [triple, List.take]
  rw [this.1, this.2.1]

theorem take_one_triple (p q r s : Nat) (hp : p < 64) (hq : q < 64) :
    (triple p q r s).take 1 = [p * 4 + q / 16] := by
  have := triple_eq p q 0 0 hp hq (by decide) (by decide)
  simp only [triple, List.cons.injEq] at this
  simp only [triple, List.take]
  rw [this.1]

theorem decode_encode : ∀ l, IsBytes l → decodeLoop [] (base64Encode l) = l
  | [], _ => by simp [base64Encode, decodeLoop, decodeTail]
  | [a], h => by
    have ha := h.head
    rw [base64Encode, quad_eq a 0 0 ha (by decide) (by decide)]
    simp only [List.take, List.map_cons, List.map_nil, List.cons_append, List.nil_append]
    rw [decode_two _ _ (by omega) (by omega), take_one_triple _ _ _ _ (by omega) (by omega)]
    congr 1; omega
  | [a, b], h => by
    have ha := h.head
    have hb := h.tail.head
    rw [base64Encode, quad_eq a b 0 ha hb (by decide)]
    simp only [List.take, List.map_cons, List.map_nil, List.cons_append, List.nil_append]
    rw [decode_three _ _ _ (by omega) (by omega) (by omega), take_two_triple _ _ _ _ (by omega) (by omega) (by omega)]
    congr 1
    · omega
    · congr 1; omega
  | a :: b :: c :: r, h => by
    have ha := h.head
    have hb := h.tail.head
    have hc := h.tail.tail.head
    rw [base64Encode, quad_eq a b c ha hb hc]
    simp only [List.map_cons, List.map_nil, List.cons_append, List.nil_append]
    rw [decode_four _ _ _ _ (by omega) (by omega) (by omega) (by omega),
      triple_eq _ _ _ _ (by omega) (by omega) (by omega) (by omega), decode_encode r h.tail.tail.tail]
    simp only [List.cons_append, List.nil_append, List.cons.injEq, and_true]
    refine ⟨?_, ?_, ?_⟩ <;> omega

/-! ## Property theorems -/

/-- C148.  With security profile 1 or 2 the handshake carries `Basic` and the RFC 4648 encoding of identity, colon and
key, and there is no handshake without a key; with the other profiles no credentials are sent. -/
theorem C148_header (profile : Int) (identity : Bytes) (key : Option Bytes)
    (hi : IsBytes identity) (hk : ∀ k, key = some k → IsBytes k) :
    handshake profile identity key =
      if profile = 1 ∨ profile = 2 then
        match key with
        | some k => .header ("Basic ".toList ++ rfcBase64 (identity ++ [58] ++ k))
        | none => .throws
      else .noHeader := by
  by_cases hp : profile = 1 ∨ profile = 2
  · cases key with
    | none => simp [handshake, authHeader, hp]
    | some k =>
      have hb : IsBytes (identity ++ [58] ++ k) := by
        intro b hb
        simp only [List.mem_append, List.mem_cons, List.not_mem_nil, or_false] at hb
        rcases hb with (hb | rfl) | hb
        · exact hi b hb
        · decide
        · exact hk k rfl b hb
      simp only [handshake, authHeader, hp, if_true, Option.map_some]
      rw [encode_rfc _ hb]
  · simp [handshake, hp]

/-- The identity `cp` with the key `secret`. -/
example : handshake 2 [99, 112] (some [115, 101, 99, 114, 101, 116]) = .header "Basic Y3A6c2VjcmV0".toList := by
  decide +kernel

/-- C148.  Decoding the encoding gives back the bytes, whatever they are and however many. -/
theorem C148_round_trip (l : Bytes) (h : IsBytes l) : base64Decode (base64Encode l) = l := decode_encode l h

example : base64Decode "/+8B".toList = [255, 239, 1] := by decide +kernel

/-- The characters the decoder accepts are those of the alphabet. -/
theorem alphabet : ∀ n, n < 128 → isBase64 (Char.ofNat n) = true → Char.ofNat n ∈ base64Chars := by decide +kernel

theorem alphabet_mem {c : Char} (h : isBase64 c = true) : c ∈ base64Chars := by
  have hc : c.toNat < 128 := by
    simp only [isBase64, Bool.or_eq_true, Bool.and_eq_true, beq_iff_eq, decide_eq_true_eq] at h
    omega
  have := alphabet c.toNat hc
  rw [Char.ofNat_toNat] at this
  exact this h

theorem decodeLoop_stop {c : Char} (hc : c ∉ base64Chars) (r : List Char) :
    ∀ (a acc : List Char), decodeLoop acc (a ++ c :: r) = decodeLoop acc a := by
  have hb : isBase64 c = false := by
    cases h : isBase64 c with
    | false => rfl
    | true => exact absurd (alphabet_mem h) hc
  intro a
  induction a with
  | nil => intro acc; simp [decodeLoop, hb]
  | cons x a ih =>
    intro acc
    rw [List.cons_append]
    unfold decodeLoop
    split
    · rfl
    · split <;> rw [ih]

/-- C148: the decoder stops at the first character that is not in the alphabet of RFC 4648. -/
theorem C148_stops (a r : List Char) (c : Char) (hc : c ∉ "ABCDEFGHIJKLMNOPQRSTUVWXYZabcdefghijklmnopqrstuvwxyz0123456789+/".toList) :
    base64Decode (a ++ c :: r) = base64Decode a := decodeLoop_stop hc r a []

example : ':' ∉ "ABCDEFGHIJKLMNOPQRSTUVWXYZabcdefghijklmnopqrstuvwxyz0123456789+/".toList ∧ base64Decode "TWFu:TWFu".toList = [77, 97, 110] := by
  decide +kernel

/-- C148.  Different credentials give different headers, if the identities contain no colon. -/
theorem C148_distinct (i i' k k' : Bytes) (hi : IsBytes i) (hi' : IsBytes i') (hk : IsBytes k) (hk' : IsBytes k')
    (hc : 58 ∉ i) (hc' : 58 ∉ i') (h : authHeader i (some k) = authHeader i' (some k')) : i = i' ∧ k = k' := by
  have hb : ∀ i k : Bytes, IsBytes i → IsBytes k → IsBytes (i ++ [58] ++ k) := by
    intro i k hi hk b hb
    simp only [List.mem_append, List.mem_cons, List.not_mem_nil, or_false] at hb
    rcases hb with (hb | rfl) | hb
    · exact hi b hb
    · decide
    · exact hk b hb
  simp only [authHeader, Option.map_some, Option.some.injEq] at h
  have h2 := List.append_cancel_left h
  have h3 : i ++ [58] ++ k = i' ++ [58] ++ k' := by
    rw [← C148_round_trip _ (hb i k hi hk), h2, C148_round_trip _ (hb i' k' hi' hk')]
  clear h h2 hi hi' hb
  induction i generalizing i' with
  | nil =>
    cases i' with
    | nil => simpa using h3
    | cons x r =>
      simp only [List.nil_append, List.cons_append, List.cons.injEq] at h3
      exact absurd (by simp [← h3.1]) hc'
  | cons x r ih =>
    cases i' with
    | nil =>
      simp only [List.nil_append, List.cons_append, List.cons.injEq] at h3
      exact absurd (by simp [h3.1]) hc
    | cons y t =>
      simp only [List.cons_append, List.cons.injEq] at h3
      have := ih (i' := t) (fun hm => hc (by simp [hm])) (fun hm => hc' (by simp [hm])) h3.2
      exact ⟨by rw [h3.1, this.1], this.2⟩

example : ∃ i i' k k' : Bytes, IsBytes i ∧ IsBytes i' ∧ IsBytes k ∧ IsBytes k' ∧ 58 ∉ i ∧ 58 ∉ i' ∧
    authHeader i (some k) ≠ authHeader i' (some k') :=
  ⟨[99], [100], [1, 2], [1, 2], by unfold IsBytes; decide, by unfold IsBytes; decide, by unfold IsBytes; decide,
    by unfold IsBytes; decide, by decide, by decide, by decide +kernel⟩

end Verif.Sock
