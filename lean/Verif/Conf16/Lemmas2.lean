import Verif.Conf16.Lemmas
import Verif.DeviceModel.Text
/-! What an accepted change does. -/
set_option linter.unusedSimpArgs false

namespace Verif.Conf16

theorem key_ne_auth {e : Key} (he : e ∈ table) {k : Text} (hk : ciEq k e.name = true) : k ≠ authKey := by
  intro h
  have := not_auth he hk
  rw [h, ciEq_refl] at this
  cases this

theorem get_known {env : Env} {s : St} {e : Key} {k : Text} (he : Known env e) (hk : ciEq k e.name = true) : get env s k = report env s e := by
  unfold get
  rw [entry_known he hk]

theorem change_known {env : Env} {s : St} {now : Int} {e : Key} {k t : Text} {w : Write} (he : Known env e) (hk : ciEq k e.name = true) :
    change env s now k t w = match report env s e with
      | .throws => (s, .error)
      | .kv _ ro _ => if ro = true then (s, .rejected) else doSet env s now k t w
      | .unknown => (s, .notSupported) := by
  unfold change
  rw [get_known he hk]
  have h1 := key_ne_auth he.1 hk
  cases report env s e with
  | throws => rfl
  | kv a ro b => simp only [h1, ne_eq, not_false_eq_true, true_and]
  | unknown => simp only [not_auth he.1 hk, Bool.false_eq_true, if_false]

theorem doSet_key {env : Env} {s : St} {now : Int} {e : Key} {k t : Text} {w : Write} (he : e ∈ table) (hk : ciEq k e.name = true) (h1 : e.rule ≠ .none)
    (h2 : e.rule ≠ .profile) : doSet env s now k t w = setKey env s now e t w := by
  unfold doSet
  rw [set_find he hk h1 h2, profile_ci he hk]
  simp [h2]

theorem doSet_profile {env : Env} {s : St} {now : Int} {e : Key} {k t : Text} {w : Write} (he : e ∈ table) (hk : ciEq k e.name = true)
    (h2 : e.rule = .profile) (hc : s.cfg.cust k = none) : doSet env s now k t w = askProfile env s t := by
  unfold doSet
  rw [set_other he hk (.inr h2) hc, profile_ci he hk]
  simp [h2]

theorem doSet_none {env : Env} {s : St} {now : Int} {e : Key} {k t : Text} {w : Write} (he : e ∈ table) (hk : ciEq k e.name = true)
    (h2 : e.rule = .none) (hc : s.cfg.cust k = none) : doSet env s now k t w = (s, .rejected) := by
  unfold doSet
  rw [set_other he hk (.inl h2) hc]
  simp [h2]

/-- An accepted change of a standard key, other than SecurityProfile, stores what `check` gives. -/
theorem accepted_key {env : Env} {s : St} {now : Int} {e : Key} {k t : Text} {w : Write} (he : Known env e) (hk : ciEq k e.name = true) (hf : Fresh s.cfg)
    (hp : e.rule ≠ .profile) (ha : ¬ Refused (change env s now k t w).2) :
    roOf env e.ro = false ∧ e.rule ≠ .none ∧ ∃ x a, check env s now e.rule t = .val x ∧ change env s now k t w = storeKey s e.name x w a := by
  rw [change_known he hk] at ha ⊢
  have hro : ∀ g, report env s e = g → ∀ a ro b, g = .kv a ro b → ro = roOf env e.ro := by
    intro g hg a ro b hgb
    subst hgb
    unfold report at hg
    cases hv : s.cfg.keys e.name with
    | none =>
      rw [hv] at hg
      dsimp only at hg
      split at hg
      · simp only [mkKv, Got.kv.injEq] at hg
        exact hg.2.1.symm
      · cases hg
    | some v =>
      rw [hv] at hg
      simp only [mkKv] at hg
      split at hg
      · cases hg
      · simp only [Got.kv.injEq] at hg
        exact hg.2.1.symm
  cases hr : report env s e with
  | throws => rw [hr] at ha; exact absurd (by simp [Refused]) ha
  | unknown => rw [hr] at ha; exact absurd (by simp [Refused]) ha
  | kv a ro b =>
    rw [hr] at ha
    have hro' := hro _ hr a ro b rfl
    cases hb : ro with
    | true => subst hb; exact absurd (by simp [Refused]) ha
    | false =>
      subst hb
      simp only [Bool.false_eq_true, if_false] at ha ⊢
      by_cases hn : e.rule = .none
      · rw [doSet_none he.1 hk hn (fresh_none hf he.1 hk)] at ha
        exact absurd (by simp [Refused]) ha
      · refine ⟨hro'.symm, hn, ?_⟩
        rw [doSet_key he.1 hk hn hp] at ha ⊢
        unfold setKey at ha ⊢
        by_cases hbl : blocked env s e = true
        · rw [if_pos hbl] at ha
          exact absurd (by simp [Refused]) ha
        · rw [if_neg hbl] at ha ⊢
          cases hc : check env s now e.rule t with
          | no a =>
            rw [hc] at ha
            exact absurd (check_no hc hp) ha
          | val x => exact ⟨x, _, rfl, rfl⟩

/-! ## Numbers -/

theorem digit_not_space {c : Char} (h : DM.isDigit c = true) : isSpace c = false := by
  simp only [DM.isDigit, decide_eq_true_eq] at h
  have h0 : '0'.toNat = 48 := rfl
  have h9 : '9'.toNat = 57 := rfl
  simp only [isSpace, Bool.or_eq_false_iff, Bool.and_eq_false_iff, decide_eq_false_iff_not, beq_eq_false_iff_ne]
  refine ⟨?_, .inr (by omega)⟩
  intro hc
  subst hc
  have : ' '.toNat = 32 := rfl
  omega

theorem takeWhile_all {p : Char → Bool} : ∀ {l : Text}, l.all p = true → l.takeWhile p = l := by
  intro l
  induction l with
  | nil => intro _; rfl
  | cons x r ih =>
    intro h
    simp only [List.all_cons, Bool.and_eq_true] at h
    rw [List.takeWhile_cons, if_pos h.1, ih h.2]

theorem stoi_digits {ds : Text} (hne : ds ≠ []) (h : ds.all DM.isDigit = true) :
    stoi ds = if 2147483647 < (DM.natOf ds : Int) then .range else .val (DM.natOf ds) := by
  cases ds with
  | nil => exact absurd rfl hne
  | cons c r =>
    have hc : DM.isDigit c = true := by simp only [List.all_cons, Bool.and_eq_true] at h; exact h.1
    have hm : c ≠ '-' := by intro hx; subst hx; revert hc; decide
    have hp : c ≠ '+' := by intro hx; subst hx; revert hc; decide
    have hd : List.dropWhile isSpace (c :: r) = c :: r := by rw [List.dropWhile_cons, digit_not_space hc]; rfl
    unfold stoi
    simp only [hd, List.head?_cons, beq_iff_eq, Option.some.injEq, hm, hp, Bool.or_false, Bool.false_eq_true, if_false, takeWhile_all h, List.isEmpty_cons,
      decide_false, show ((some c == some '-') = false) from by simp [hm], show ((some c == some '+') = false) from by simp [hp]]
    have : ¬ ((DM.natOf (c :: r) : Int) < -2147483648) := by omega
    simp only [this, false_or]

theorem stoi_signed {c : Char} {ds : Text} (hc : c = '-' ∨ c = '+') (hne : ds ≠ []) (h : ds.all DM.isDigit = true) :
    stoi (c :: ds) = (let n : Int := if c = '-' then - (DM.natOf ds : Int) else DM.natOf ds
      if n < -2147483648 ∨ 2147483647 < n then .range else .val n) := by
  have hs : isSpace c = false := by rcases hc with rfl | rfl <;> decide
  have hd : List.dropWhile isSpace (c :: ds) = c :: ds := by rw [List.dropWhile_cons, hs]; rfl
  unfold stoi
  have he : ds.isEmpty = false := by cases ds <;> simp_all
  rcases hc with rfl | rfl
  · simp only [hd, List.head?_cons, beq_self_eq_true, Bool.true_or, if_true, List.tail_cons, takeWhile_all h, he, Bool.false_eq_true, if_false]
  · simp only [hd, List.head?_cons, beq_self_eq_true, Bool.or_true, if_true, List.tail_cons, takeWhile_all h, he, Bool.false_eq_true, if_false,
      show (some '+' == some '-') = false from by decide, show ('+' : Char) ≠ '-' from by decide]

/-- On the text of an integer `stoi` gives this integer, unless it is too big. -/
theorem stoi_integer {t : Text} {n : Int} (h : DM.IsIntegerText t n) : stoi t = .val n ∨ stoi t = .range := by
  obtain ⟨ds, hne, hd, hc⟩ := h
  have ha := (DM.all_digits ds).mpr hd
  rcases hc with ⟨rfl, rfl⟩ | ⟨rfl, rfl⟩ | ⟨rfl, rfl⟩
  · rw [stoi_digits hne ha, DM.natOf_eq]
    split <;> simp
  · rw [stoi_signed (.inr rfl) hne ha, DM.natOf_eq]
    simp only [show ('+' : Char) ≠ '-' from by decide, if_false]
    split <;> simp
  · rw [stoi_signed (.inl rfl) hne ha, DM.natOf_eq]
    simp only [if_true]
    split <;> simp

/-- `is_positive_integer`. -/
theorem positive_some {t : Text} {n : Int} (h : positive t = some n) : DM.IsIntegerText t n ∧ 0 ≤ n ∧ n ≤ 2147483647 := by
  unfold positive at h
  by_cases hi : DM.isInteger t = true
  · rw [if_pos hi] at h
    cases t with
    | nil => simp [DM.isInteger] at hi
    | cons c r =>
      by_cases hs : c = '+' ∨ c = '-'
      · simp only [DM.isInteger, if_pos hs] at hi
        by_cases hr : r = []
        · subst hr
          exfalso
          rcases hs with rfl | rfl
          · rw [show stoi ['+'] = .invalid from by decide] at h; cases h
          · rw [show stoi ['-'] = .invalid from by decide] at h; cases h
        · rw [stoi_signed hs.symm hr hi] at h
          have key : ∀ z : Int, (match (if z < -2147483648 ∨ 2147483647 < z then Stoi.range else Stoi.val z) with
              | .val n => if n < 0 then none else some n
              | _ => none) = some n → z = n ∧ 0 ≤ n ∧ n ≤ 2147483647 := by
            intro z hz
            by_cases hc : z < -2147483648 ∨ 2147483647 < z
            · rw [if_pos hc] at hz; cases hz
            · rw [if_neg hc] at hz
              by_cases hn : z < 0
              · simp [hn] at hz
              · simp [hn] at hz; omega
          obtain ⟨h1, h2, h3⟩ := key _ h
          refine ⟨⟨r, hr, (DM.all_digits r).mp hi, ?_⟩, h2, h3⟩
          rcases hs with rfl | rfl
          · simp only [show ('+' : Char) ≠ '-' from by decide, if_false, DM.natOf_eq] at h1
            exact .inr (.inl ⟨rfl, h1.symm⟩)
          · simp only [if_true, DM.natOf_eq] at h1
            exact .inr (.inr ⟨rfl, h1.symm⟩)
      · simp only [DM.isInteger, if_neg hs] at hi
        rw [stoi_digits (by simp) hi] at h
        split at h
        · rename_i m hm
          split at hm
          · cases hm
          · injection hm with hm
            split at h
            · cases h
            · injection h with h
              subst h
              exact ⟨⟨c :: r, by simp, (DM.all_digits _).mp hi, .inl ⟨rfl, by rw [← hm, DM.natOf_eq]⟩⟩, by omega, by omega⟩
        · cases h
  · rw [if_neg hi] at h
    cases h

theorem ite_val {c : Prop} [Decidable c] {a x : Val} {b : Status} (h : (if c then Res.val a else Res.no b) = .val x) : c ∧ x = a := by
  split at h
  · injection h with h; exact ⟨by assumption, h.symm⟩
  · cases h

theorem check_reads {env : Env} {s : St} {now : Int} {e : Key} {t : Text} {x : Val} (he : e ∈ table) (h : check env s now e.rule t = .val x) :
    Reads env e.ty t x := by
  have hf := facts_of he
  simp only [facts, Bool.and_eq_true] at hf
  have hfit := hf.1.1.1.1.1.1.1.1
  have hb : ∀ b : Bool, (b = true ↔ SameName t "true".toList) ↔ b = toBool t := by
    intro b
    unfold SameName toBool lower
    have : List.map Char.toLower "true".toList = "true".toList := by decide
    rw [this]
    constructor
    · intro hx
      by_cases h1 : List.map Char.toLower t = "true".toList
      · rw [hx.mpr h1]; exact (beq_iff_eq.mpr h1).symm
      · cases b with
        | true => exact absurd (hx.mp rfl) h1
        | false => exact (beq_eq_false_iff_ne.mpr h1).symm
    · intro hx
      rw [hx]
      exact beq_iff_eq
  unfold fits at hfit
  unfold Reads
  cases hr : e.rule <;> cases ht : e.ty <;> rw [hr, ht] at hfit <;> simp only [Bool.false_eq_true] at hfit <;> rw [hr] at h <;> simp only [check, orReject] at h <;>
    dsimp only
  all_goals try (cases h; done)
  case bool.bool | unlock.bool =>
    split at h
    · injection h with h; exact ⟨_, h.symm, (hb _).mpr rfl⟩
    · cases h
  case boolAny.bool => injection h with h; exact ⟨_, h.symm, (hb _).mpr rfl⟩
  case nat.int =>
    cases hp : positive t with
    | none => rw [hp] at h; cases h
    | some n =>
      rw [hp] at h
      have hpos := positive_some hp
      have hx : x = .int n := (ite_val h).2
      refine ⟨n, hx, fun m hm => ?_⟩
      have h1 := stoi_integer hm
      have h2 := stoi_integer hpos.1
      unfold positive at hp
      split at hp
      · cases hst : stoi t with
        | val y =>
          rw [hst] at hp h1
          dsimp only at hp
          split at hp
          · cases hp
          · injection hp with hp
            rcases h1 with h1 | h1
            · injection h1 with h1; omega
            · cases h1
        | invalid => rw [hst] at hp; cases hp
        | range => rw [hst] at hp; cases hp
      · cases hp
  case phases.int =>
    cases hst : stoi t with
    | val y =>
      rw [hst] at h
      dsimp only at h
      split at h
      · injection h with h
        refine ⟨y, h.symm, fun m hm => ?_⟩
        rcases stoi_integer hm with h1 | h1 <;> rw [hst] at h1 <;> injection h1
      · cases h
    | invalid => rw [hst] at h; cases h
    | range => rw [hst] at h; cases h
  case json.obj =>
    cases hp : env.parse t with
    | none => rw [hp] at h; cases h
    | some j => rw [hp] at h; injection h with h; exact ⟨j, rfl, h.symm⟩
  case uri.str => injection h with h; exact h.symm
  case future.str =>
    cases hd : env.date t with
    | none => rw [hd] at h; cases h
    | some d =>
      rw [hd] at h
      dsimp only at h
      split at h
      · injection h with h; exact h.symm
      · cases h
  all_goals exact (ite_val h).2

theorem bytes_le (t : Text) : bytes t ≤ 4 * t.length := by
  unfold bytes
  induction t with
  | nil => simp
  | cons c r ih =>
    simp only [List.map_cons, List.sum_cons, List.length_cons]
    have := Char.utf8Size_le_four c
    omega

theorem bytes_ge (t : Text) : t.length ≤ bytes t := by
  unfold bytes
  induction t with
  | nil => simp
  | cons c r ih =>
    simp only [List.map_cons, List.sum_cons, List.length_cons]
    have := Char.utf8Size_pos c
    omega

theorem show_int_bytes {n : Int} (h0 : 0 ≤ n) (h : n ≤ 2147483647) : bytes (Val.int n).show ≤ 500 := by
  refine Nat.le_trans (bytes_le _) ?_
  obtain ⟨m, rfl⟩ := Int.eq_ofNat_of_zero_le h0
  have h1 : (Val.show (.int (m : Int))) = m.repr.toList := rfl
  rw [h1]
  have : m.repr.length ≤ 100 := (Nat.length_repr_le_iff (by omega)).mpr (by
    refine Nat.lt_of_le_of_lt (show m ≤ 2147483647 by omega) (by decide))
  rw [String.length_toList]
  omega

/-- The value that is stored can be reported, unless it is a JSON value. -/
theorem check_bytes {env : Env} {s : St} {now : Int} {e : Key} {t : Text} {x : Val} (h : check env s now e.rule t = .val x)
    (hj : e.rule ≠ .json) (hb : bytes t ≤ 500) : bytes x.show ≤ 500 := by
  have hbool : ∀ b : Bool, bytes (Val.bool b).show ≤ 500 := by
    intro b
    refine Nat.le_trans (bytes_le _) ?_
    cases b <;> decide
  cases hr : e.rule <;> rw [hr] at h <;> simp only [check, orReject] at h
  case json => exact absurd hr hj
  all_goals try (cases h; done)
  case nat lo hi =>
    cases hp : positive t with
    | none => rw [hp] at h; cases h
    | some n =>
      rw [hp] at h
      have hpos := positive_some hp
      rw [(ite_val h).2]
      exact show_int_bytes hpos.2.1 hpos.2.2
  case phases =>
    cases hst : stoi t with
    | val y =>
      rw [hst] at h
      dsimp only at h
      split at h
      · rename_i hy
        injection h with h
        subst h
        simp only [decide_eq_true_eq] at hy
        exact show_int_bytes (by omega) (by omega)
      · cases h
    | invalid => rw [hst] at h; cases h
    | range => rw [hst] at h; cases h
  case boolAny => injection h with h; subst h; exact hbool _
  case uri => injection h with h; subst h; exact hb
  case future =>
    cases hd : env.date t with
    | none => rw [hd] at h; cases h
    | some d =>
      rw [hd] at h
      dsimp only at h
      split at h
      · injection h with h; subst h; exact hb
      · cases h
  case bool | unlock =>
    split at h
    · injection h with h; subst h; exact hbool _
    · cases h
  all_goals
    rw [(ite_val h).2]
    exact hb

end Verif.Conf16
