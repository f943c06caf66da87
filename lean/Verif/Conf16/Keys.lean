import Verif.Conf16.Formats
/-! C205, C206: the authorization key, and values that are lists. -/
set_option linter.unusedSimpArgs false

namespace Verif.Conf16

/-! ## What the values mean -/

/-- The hexadecimal digit `c` has the value `n`. -/
def Digit (c : Char) (n : Nat) : Prop := "0123456789abcdef".toList[n]? = some c ∨ "0123456789ABCDEF".toList[n]? = some c

/-- The text `h` is the hexadecimal notation of the bytes of `p`. -/
inductive Denotes : Text → Text → Prop
  | nil : Denotes [] []
  | pair {a b : Char} {i j : Nat} {h p : Text} : Digit a i → Digit b j → Denotes h p → Denotes (a :: b :: h) (Char.ofNat (16 * i + j) :: p)

/-- Printable ASCII characters. -/
def Printable (p : Text) : Prop := ∀ c ∈ p, 0x20 ≤ c.toNat ∧ c.toNat ≤ 0x7e

/-- An EVSE id has 7 to 37 bytes. -/
def EvseId (p : Text) : Prop := 7 ≤ bytes p ∧ bytes p ≤ 37

/-- The purposes of charging profiles. -/
def Purpose (p : Text) : Prop := p = "ChargePointMaxProfile".toList ∨ p = "TxDefaultProfile".toList ∨ p = "TxProfile".toList

/-- The text is empty, a list with commas between the pieces, or such a list and a comma. -/
def Loose (ps : List Text) (t : Text) : Prop := (ps = [] ∧ t = []) ∨ Joined ',' ps t ∨ ∃ t0, Joined ',' ps t0 ∧ t = t0 ++ [',']

/-! ## Hexadecimal digits -/

theorem digit_val {c : Char} {n : Nat} (h : Digit c n) : isHexDigit c = true ∧ hexVal c = n ∧ n < 16 := by
  have hn : n < 16 := by
    rcases h with h | h
    · exact (List.getElem?_eq_some_iff.1 h).1
    · exact (List.getElem?_eq_some_iff.1 h).1
  have key : ∀ n : Fin 16, (isHexDigit ("0123456789abcdef".toList[n]) = true ∧ hexVal ("0123456789abcdef".toList[n]) = n) ∧
      isHexDigit ("0123456789ABCDEF".toList[n]) = true ∧ hexVal ("0123456789ABCDEF".toList[n]) = n := by decide
  have := key ⟨n, hn⟩
  rcases h with h | h
  · obtain ⟨h1, h2⟩ := List.getElem?_eq_some_iff.1 h
    exact ⟨h2 ▸ this.1.1, h2 ▸ this.1.2, hn⟩
  · obtain ⟨h1, h2⟩ := List.getElem?_eq_some_iff.1 h
    exact ⟨h2 ▸ this.2.1, h2 ▸ this.2.2, hn⟩

theorem denotes_pairs {h p : Text} (hd : Denotes h p) : h.all isHexDigit = true ∧ hexPairs h = p ∧ hexToString h = p := by
  induction hd with
  | nil => exact ⟨rfl, rfl, rfl⟩
  | pair ha hb _ ih =>
    obtain ⟨a1, a2, _⟩ := digit_val ha
    obtain ⟨b1, b2, _⟩ := digit_val hb
    refine ⟨by simp [a1, b1, ih.1], ?_, ?_⟩
    · simp only [hexPairs, a2, b2, ih.2.1]
    · simp only [hexToString, firstPair, a1, b1, if_true, a2, b2, ih.2.1]

theorem hexDigit_ascii {c : Char} (h : isHexDigit c = true) : c.toNat < 128 ∧ c.utf8Size = 1 := by
  have hlt : c.toNat < 128 := by
    simp only [isHexDigit, DM.isDigit, Bool.or_eq_true, Bool.and_eq_true, decide_eq_true_eq] at h
    have e1 : 'f'.toNat = 102 := rfl
    have e2 : 'F'.toNat = 70 := rfl
    have e3 : '9'.toNat = 57 := rfl
    omega
  refine ⟨hlt, ?_⟩
  unfold Char.utf8Size
  have : c.val ≤ 0x7f := by
    rw [UInt32.le_iff_toNat_le]
    show c.toNat ≤ 127
    omega
  simp [this]

theorem hexDigits_bytes {t : Text} (h : t.all isHexDigit = true) : bytes t = t.length := by
  unfold bytes
  induction t with
  | nil => rfl
  | cons a r ih =>
    simp only [List.all_cons, Bool.and_eq_true] at h
    simp only [List.map_cons, List.sum_cons, List.length_cons, ih h.2, (hexDigit_ascii h.1).2]
    omega

theorem isHex_of {h p : Text} (hd : Denotes h p) (hp : Printable p) (hl : 8 ≤ h.length) : isHexNotation h = true := by
  obtain ⟨h1, _, h3⟩ := denotes_pairs hd
  match h, hl with
  | a :: b :: c :: r, _ =>
    simp only [List.all_cons, Bool.and_eq_true] at h1
    have hall : (hexToString (a :: b :: c :: r)).all (fun c => (0x20 ≤ c.toNat && c.toNat ≤ 0x7e) || c.toNat == 0xa) = true := by
      rw [h3]
      refine List.all_eq_true.2 fun x hx => ?_
      have := hp x hx
      simp [this.1, this.2]
    simp only [isHexNotation]
    rw [hall]
    simp [(hexDigit_ascii h1.2.1).1, h1.2.2.1]
    simpa using h1.2.2.2

/-! ## C205 -/

theorem stored_auth {env : Env} {s : St} {u : Maps} {now : Int} {t : Text} (hf : Fresh s.cfg) (hu : s.user = some u) (hl : 8 ≤ bytes t) :
    change env s now authKey t .ok = ({ s with cfg := putKey authKey (.text (decode t)) s.cfg, user := some (putKey authKey (.text (decode t)) u) }, .accepted) := by
  rw [change_auth hf]
  unfold setAuthKey storeKey
  rw [if_pos hl]
  simp only [store_ok _ hu]
  rfl

/-- C205, partial: an authorization key in hexadecimal notation is accepted, and the key it denotes is stored, at once and in the file.
Missing: keys with bytes that are not printable characters (see `C205_binary_violated`). -/
theorem C205_hex_partial {env : Env} {s : St} {u : Maps} {now : Int} {h p : Text} (hf : Fresh s.cfg) (hu : s.user = some u) (hd : Denotes h p) (hp : Printable p)
    (hl : 8 ≤ h.length) :
    (change env s now "AuthorizationKey".toList h .ok).2 = .accepted ∧
    (change env s now "AuthorizationKey".toList h .ok).1.cfg.keys "AuthorizationKey".toList = some (.text p) ∧
    ((change env s now "AuthorizationKey".toList h .ok).1.user.map fun m => m.keys "AuthorizationKey".toList) = some (some (.text p)) := by
  have h1 := denotes_pairs hd
  have hdec : decode h = p := by unfold decode; rw [isHex_of hd hp hl, if_pos rfl, h1.2.2]
  have hb : 8 ≤ bytes h := by rw [hexDigits_bytes h1.1]; exact hl
  have := stored_auth (env := env) (now := now) hf hu hb
  unfold authKey at this
  rw [this, hdec]
  exact ⟨rfl, by simp [putKey, upd], by simp [putKey, upd]⟩

theorem abcdefgh : Denotes "4142434445464748".toList "ABCDEFGH".toList :=
  .pair (i := 4) (j := 1) (.inl rfl) (.inl rfl) (.pair (i := 4) (j := 2) (.inl rfl) (.inl rfl) (.pair (i := 4) (j := 3) (.inl rfl) (.inl rfl)
    (.pair (i := 4) (j := 4) (.inl rfl) (.inl rfl) (.pair (i := 4) (j := 5) (.inl rfl) (.inl rfl) (.pair (i := 4) (j := 6) (.inl rfl) (.inl rfl)
      (.pair (i := 4) (j := 7) (.inl rfl) (.inl rfl) (.pair (i := 4) (j := 8) (.inl rfl) (.inl rfl) .nil)))))))

example : Denotes "4142434445464748".toList "ABCDEFGH".toList ∧ Printable "ABCDEFGH".toList ∧ Fresh demo.cfg ∧ demo.user = some noChanges :=
  ⟨abcdefgh, by unfold Printable; decide, demo_fresh, rfl⟩

/-- C205, partial: a key of at least 8 bytes that is not in hexadecimal notation is accepted and stored as it is.
Missing: keys where only one of the first two characters is not a digit (see `C205_plain_violated`). -/
theorem C205_plain_partial {env : Env} {s : St} {u : Maps} {now : Int} {t : Text} {c : Char} (hf : Fresh s.cfg) (hu : s.user = some u) (hl : 8 ≤ bytes t)
    (hc : c ∈ t.drop 2) (hn : ∀ n, ¬ Digit c n) :
    (change env s now "AuthorizationKey".toList t .ok).2 = .accepted ∧
    (change env s now "AuthorizationKey".toList t .ok).1.cfg.keys "AuthorizationKey".toList = some (.text t) ∧
    ((change env s now "AuthorizationKey".toList t .ok).1.user.map fun m => m.keys "AuthorizationKey".toList) = some (some (.text t)) := by
  have hx : isHexDigit c = false := by
    cases h : isHexDigit c with
    | false => rfl
    | true =>
      have hlt := (hexDigit_ascii h).1
      have key : ∀ m : Fin 128, isHexDigit (Char.ofNat m) = true → ∃ n : Fin 16, Digit (Char.ofNat m) n := by
        unfold Digit; decide +kernel
      have hof : Char.ofNat c.toNat = c := Char.ofNat_toNat c
      obtain ⟨n, hn'⟩ := key ⟨c.toNat, hlt⟩ (by rw [hof]; exact h)
      rw [hof] at hn'
      exact absurd hn' (hn n)
  have hdec : decode t = t := by
    unfold decode
    rw [if_neg]
    intro hh
    match t, hc with
    | a :: b :: r, hc =>
      simp only [isHexNotation, Bool.and_eq_true] at hh
      have := List.all_eq_true.1 hh.1.2 c (by simpa using hc)
      rw [hx] at this; cases this
  have := stored_auth (env := env) (now := now) hf hu hl
  unfold authKey at this
  rw [this, hdec]
  exact ⟨rfl, by simp [putKey, upd], by simp [putKey, upd]⟩

example : 8 ≤ bytes "secret-key".toList ∧ '-' ∈ "secret-key".toList.drop 2 ∧ ∀ n, ¬ Digit '-' n := by
  refine ⟨by decide, by decide, fun n h => ?_⟩
  have := (digit_val h).1
  revert this; decide

/-- C205: a key of less than 8 bytes is refused, and nothing changes. -/
theorem C205_short {env : Env} {s : St} {now : Int} {t : Text} {w : Write} (hf : Fresh s.cfg) (hl : bytes t < 8) :
    change env s now "AuthorizationKey".toList t w = (s, .rejected) := by
  have := change_auth (env := env) (now := now) (t := t) (w := w) hf
  unfold setAuthKey at this
  rw [if_neg (by omega)] at this
  exact this

example : bytes "1234567".toList < 8 ∧ Fresh demo.cfg := ⟨by decide, demo_fresh⟩

theorem demo_auth {t x : Text} (hl : 8 ≤ bytes t) (hx : decode t = x) :
    (change demoEnv demo 0 "AuthorizationKey".toList t .ok).2 = .accepted ∧
    (change demoEnv demo 0 "AuthorizationKey".toList t .ok).1.cfg.keys "AuthorizationKey".toList = some (.text x) := by
  have := stored_auth (env := demoEnv) (now := 0) (u := noChanges) demo_fresh rfl hl
  unfold authKey at this
  rw [this, hx]
  exact ⟨rfl, by simp [putKey, upd]⟩

/-- C205 is violated: of a random key, whose bytes are not all printable characters, the hexadecimal notation is stored, as if it was the key. -/
theorem C205_binary_violated : ∃ h p : Text, Denotes h p ∧ h.length = 16 ∧ h ≠ p ∧ (change demoEnv demo 0 "AuthorizationKey".toList h .ok).2 = .accepted ∧
    (change demoEnv demo 0 "AuthorizationKey".toList h .ok).1.cfg.keys "AuthorizationKey".toList = some (.text h) := by
  refine ⟨"4142434445464707".toList, ['A', 'B', 'C', 'D', 'E', 'F', 'G', Char.ofNat 7], ?_, by decide, by decide, ?_⟩
  · exact .pair (i := 4) (j := 1) (.inl rfl) (.inl rfl) (.pair (i := 4) (j := 2) (.inl rfl) (.inl rfl) (.pair (i := 4) (j := 3) (.inl rfl) (.inl rfl)
      (.pair (i := 4) (j := 4) (.inl rfl) (.inl rfl) (.pair (i := 4) (j := 5) (.inl rfl) (.inl rfl) (.pair (i := 4) (j := 6) (.inl rfl) (.inl rfl)
        (.pair (i := 4) (j := 7) (.inl rfl) (.inl rfl) (.pair (i := 0) (j := 7) (.inl rfl) (.inl rfl) .nil)))))))
  · exact demo_auth (by decide) (by decide +kernel)

/-- C205 is violated: texts that are not in hexadecimal notation are changed: one whose second character is not a digit, and one with an odd number of digits. -/
theorem C205_plain_violated : ∀ t ∈ ["aZ41424344".toList, "41424344a".toList], (∀ p, ¬ Denotes t p) ∧
    (change demoEnv demo 0 "AuthorizationKey".toList t .ok).2 = .accepted ∧
    ∃ x, x ≠ t ∧ (change demoEnv demo 0 "AuthorizationKey".toList t .ok).1.cfg.keys "AuthorizationKey".toList = some (.text x) := by
  intro t ht
  simp only [List.mem_cons, List.not_mem_nil, or_false] at ht
  rcases ht with rfl | rfl
  · refine ⟨fun p h => ?_, (demo_auth (x := "\nABCD".toList) (by decide) (by decide +kernel)).1, _, ?_, (demo_auth (x := "\nABCD".toList) (by decide) (by decide +kernel)).2⟩
    · have := (denotes_pairs h).1
      revert this; decide
    · decide
  · refine ⟨fun p h => ?_, (demo_auth (x := "ABCD\n".toList) (by decide) (by decide +kernel)).1, _, ?_, (demo_auth (x := "ABCD\n".toList) (by decide) (by decide +kernel)).2⟩
    · have even : ∀ {h p : Text}, Denotes h p → h.length % 2 = 0 := by
        intro h p hd
        induction hd with
        | nil => rfl
        | pair _ _ _ ih => simp only [List.length_cons]; omega
      have := even h
      revert this; decide
    · decide

/-! ## Lists -/

theorem Joined.cons {ps : List Text} {acc r : Text} (h : ',' ∉ acc) (hj : Joined ',' ps r) : Joined ',' (acc :: ps) (acc ++ ',' :: r) := by
  obtain ⟨h1, h2, h3⟩ := hj
  refine ⟨?_, by simp, ?_⟩
  · cases ps with
    | nil => exact absurd rfl h2
    | cons a l => rw [h1]; simp [List.intercalate, List.intersperse]
  · intro p hp
    rcases List.mem_cons.1 hp with rfl | hp
    · exact h
    · exact h3 p hp

theorem Joined.one {acc : Text} (h : ',' ∉ acc) : Joined ',' [acc] acc :=
  ⟨by simp [List.intercalate], by simp, by intro p hp; rw [List.mem_singleton.1 hp]; exact h⟩

theorem splitOn_loose : ∀ (t acc : Text), ',' ∉ acc → Loose (splitOn ',' acc t) (acc ++ t) := by
  intro t
  induction t with
  | nil =>
    intro acc h
    cases acc with
    | nil => exact .inl ⟨rfl, rfl⟩
    | cons a l =>
      have : splitOn ',' (a :: l) [] = [a :: l] := rfl
      rw [this, List.append_nil]
      exact .inr (.inl (.one h))
  | cons x r ih =>
    intro acc h
    by_cases hx : x = ','
    · subst hx
      have he : splitOn ',' acc (',' :: r) = acc :: splitOn ',' [] r := by simp [splitOn]
      rw [he]
      have := ih [] (by simp)
      rw [List.nil_append] at this
      rcases this with ⟨h1, h2⟩ | h1 | ⟨t0, h1, h2⟩
      · rw [h1, h2]; exact .inr (.inr ⟨acc, .one h, rfl⟩)
      · exact .inr (.inl (.cons h h1))
      · exact .inr (.inr ⟨acc ++ ',' :: t0, .cons h h1, by rw [h2]; simp⟩)
    · have he : splitOn ',' acc (x :: r) = splitOn ',' (acc ++ [x]) r := by simp [splitOn, hx]
      rw [he]
      have := ih (acc ++ [x]) (by simp only [List.mem_append, List.mem_singleton, not_or]; exact ⟨h, fun e => hx e.symm⟩)
      rwa [List.append_assoc, List.singleton_append] at this

theorem splitOn_comma : ∀ (p acc r : Text), ',' ∉ p → splitOn ',' acc (p ++ r) = splitOn ',' (acc ++ p) r := by
  intro p
  induction p with
  | nil => intro acc r _; simp
  | cons x q ih =>
    intro acc r h
    simp only [List.mem_cons, not_or] at h
    have : splitOn ',' acc (x :: (q ++ r)) = splitOn ',' (acc ++ [x]) (q ++ r) := by simp [splitOn, Ne.symm h.1]
    rw [List.cons_append, this, ih _ _ h.2, List.append_assoc, List.singleton_append]

theorem splitOn_intercalate : ∀ (ps : List Text), (∀ p ∈ ps, ',' ∉ p ∧ p ≠ []) → splitOn ',' [] (List.intercalate [','] ps) = ps := by
  intro ps
  induction ps with
  | nil => intro _; rfl
  | cons p l ih =>
    intro h
    have hp := h p (by simp)
    cases l with
    | nil =>
      have e : List.intercalate [','] [p] = p ++ [] := by simp [List.intercalate]
      rw [e, splitOn_comma p [] [] hp.1, List.nil_append]
      unfold splitOn
      rw [if_neg]
      intro hh
      exact hp.2 (List.isEmpty_iff.1 hh)
    | cons q l =>
      have e : List.intercalate [','] (p :: q :: l) = p ++ ',' :: List.intercalate [','] (q :: l) := by simp [List.intercalate, List.intersperse]
      rw [e, splitOn_comma p [] _ hp.1, List.nil_append]
      have : splitOn ',' p (',' :: List.intercalate [','] (q :: l)) = p :: splitOn ',' [] (List.intercalate [','] (q :: l)) := by simp [splitOn]
      rw [this, ih fun x hx => h x (List.mem_cons_of_mem _ hx)]

/-! ## C206 -/

/-- The row of IgnoredProfilePurposesOffline. -/
def purposesRow : Key := ⟨"IgnoredProfilePurposesOffline".toList, .internal, false, (.str 0 none), .no, .purposes, .none, false⟩

theorem purposesRow_mem : purposesRow ∈ table := by decide +kernel

theorem list_stored {env : Env} {s : St} {u : Maps} {now : Int} {e : Key} {k t : Text} {v : Val} (he : Known env e) (hu : s.user = some u) (hk : SameName k e.name)
    (hv : s.cfg.keys e.name = some v) (hs : bytes v.show ≤ 500) (hro : roOf env e.ro = false) (h1 : e.rule ≠ .none) (h2 : e.rule ≠ .profile) (h3 : e.rule ≠ .uri)
    (hbl : blocked env s e = false) (hc : check env s now e.rule t = .val (.text t)) :
    (change env s now k t .ok).2 = .accepted ∧ (change env s now k t .ok).1.cfg.keys e.name = some (.text t) := by
  rw [change_val (e := e) (v := v) he (sameName_iff.mp hk) hv hs hro h1 h2 hbl hc, if_neg h3]
  unfold storeKey
  simp only [store_ok _ hu]
  exact ⟨rfl, by simp [upd]⟩

/-- C206, partial: a value that is accepted for ConnectorEvseIds has at most 1000 bytes and is a list of ids of 7 to 37 bytes.
Missing: it may be empty, or end with a comma (see `C206_violated`). -/
theorem C206_evse_sound_partial {env : Env} {s : St} {now : Int} {k t : Text} {w : Write} (hf : Fresh s.cfg) (hk : SameName k "ConnectorEvseIds".toList)
    (ha : ¬ Refused (change env s now k t w).2) : bytes t ≤ 1000 ∧ ∃ ps, Loose ps t ∧ ∀ p ∈ ps, EvseId p := by
  by_cases hkn : Known env evseIdsRow
  · obtain ⟨_, _, x, a, hc, _⟩ := accepted_key hkn (sameName_iff.mp hk) hf (by decide) ha
    have hr : evseIdsOk t = true := by
      have : check env s now evseIdsRow.rule t = orReject (evseIdsOk t) (.text t) := rfl
      rw [this] at hc
      exact (ite_val hc).1
    simp only [evseIdsOk, Bool.and_eq_true, decide_eq_true_eq] at hr
    refine ⟨hr.1, pieces ',' t, by have := splitOn_loose t [] (by simp); rwa [List.nil_append] at this, fun p hp => ?_⟩
    have := List.all_eq_true.1 hr.2 p hp
    rwa [decide_eq_true_eq] at this
  · exact absurd ⟨evseIdsRow_mem, by intro h; exact absurd h (by decide)⟩ hkn

/-- C206: each list of ids of 7 to 37 bytes with at most 1000 bytes is accepted for ConnectorEvseIds and stored. -/
theorem C206_evse_complete {env : Env} {s : St} {u : Maps} {now : Int} {k t : Text} {v : Val} {ps : List Text} (hu : s.user = some u)
    (hk : SameName k "ConnectorEvseIds".toList) (hv : s.cfg.keys "ConnectorEvseIds".toList = some v) (hs : bytes v.show ≤ 500) (hl : bytes t ≤ 1000)
    (hj : Joined ',' ps t) (hp : ∀ p ∈ ps, EvseId p) :
    (change env s now k t .ok).2 = .accepted ∧ (change env s now k t .ok).1.cfg.keys "ConnectorEvseIds".toList = some (.text t) := by
  have hkn : Known env evseIdsRow := ⟨evseIdsRow_mem, by intro h; exact absurd h (by decide)⟩
  have hr : evseIdsOk t = true := by
    have hpc : pieces ',' t = ps := by
      rw [hj.1]
      refine splitOn_intercalate ps fun p hpm => ⟨hj.2.2 p hpm, fun e => ?_⟩
      have := (hp p hpm).1
      rw [e] at this
      revert this; decide
    simp only [evseIdsOk, Bool.and_eq_true, decide_eq_true_eq, hpc]
    exact ⟨hl, List.all_eq_true.2 fun p hpm => by rw [decide_eq_true_eq]; exact hp p hpm⟩
  have hc : check env s now evseIdsRow.rule t = .val (.text t) := by
    have : check env s now evseIdsRow.rule t = orReject (evseIdsOk t) (.text t) := rfl
    rw [this, hr]; rfl
  have hbl : blocked env s evseIdsRow = false := by
    show (s.cfg.keys "ConnectorEvseIds".toList).isNone = false
    rw [hv]; rfl
  exact list_stored (e := evseIdsRow) hkn hu hk hv hs rfl (by decide) (by decide) (by decide) hbl hc

example : Joined ',' ["DE*ABC*E1".toList, "DE*ABC*E2".toList] "DE*ABC*E1,DE*ABC*E2".toList ∧ EvseId "DE*ABC*E1".toList ∧ EvseId "DE*ABC*E2".toList ∧
    demo.cfg.keys "ConnectorEvseIds".toList = some (.text "DE*ABC*E1".toList) ∧ Fresh demo.cfg ∧
    ¬ Refused (change demoEnv demo 0 "ConnectorEvseIds".toList "DE*ABC*E1,DE*ABC*E2".toList .ok).2 := by
  have hj : Joined ',' ["DE*ABC*E1".toList, "DE*ABC*E2".toList] "DE*ABC*E1,DE*ABC*E2".toList := ⟨by decide +kernel, by decide, by decide +kernel⟩
  have hd : ∀ p ∈ ["DE*ABC*E1".toList, "DE*ABC*E2".toList], EvseId p := by unfold EvseId; decide +kernel
  refine ⟨hj, hd _ (by simp), hd _ (by simp), by decide, demo_fresh, fun h => h.1 ?_⟩
  exact (C206_evse_complete (u := noChanges) (v := .text "DE*ABC*E1".toList) rfl rfl (by decide) (by decide) (by decide) hj hd).1

/-- C206, partial: a value that is accepted for IgnoredProfilePurposesOffline is empty or a list of purposes.
Missing: it may end with a comma (see `C206_violated`). -/
theorem C206_purposes_sound_partial {env : Env} {s : St} {now : Int} {k t : Text} {w : Write} (hf : Fresh s.cfg) (hk : SameName k "IgnoredProfilePurposesOffline".toList)
    (ha : ¬ Refused (change env s now k t w).2) : ∃ ps, Loose ps t ∧ ∀ p ∈ ps, Purpose p := by
  have hkn : Known env purposesRow := ⟨purposesRow_mem, by intro h; exact absurd h (by decide)⟩
  obtain ⟨_, _, x, a, hc, _⟩ := accepted_key hkn (sameName_iff.mp hk) hf (by decide) ha
  have hr : purposesOk t = true := by
    have : check env s now purposesRow.rule t = orReject (purposesOk t) (.text t) := rfl
    rw [this] at hc
    exact (ite_val hc).1
  refine ⟨pieces ',' t, by have := splitOn_loose t [] (by simp); rwa [List.nil_append] at this, fun p hp => ?_⟩
  have := List.all_eq_true.1 hr p hp
  simp only [List.any_cons, List.any_nil, Bool.or_false, Bool.or_eq_true, beq_iff_eq] at this
  rcases this with h | h | h
  · exact .inl h.symm
  · exact .inr (.inl h.symm)
  · exact .inr (.inr h.symm)

/-- C206: each list of purposes, also the empty one, is accepted for IgnoredProfilePurposesOffline if the station has this key, and stored. -/
theorem C206_purposes_complete {env : Env} {s : St} {u : Maps} {now : Int} {k t : Text} {v : Val} {ps : List Text} (hu : s.user = some u)
    (hk : SameName k "IgnoredProfilePurposesOffline".toList) (hv : s.cfg.keys "IgnoredProfilePurposesOffline".toList = some v) (hs : bytes v.show ≤ 500)
    (hj : (ps = [] ∧ t = []) ∨ Joined ',' ps t) (hp : ∀ p ∈ ps, Purpose p) :
    (change env s now k t .ok).2 = .accepted ∧ (change env s now k t .ok).1.cfg.keys "IgnoredProfilePurposesOffline".toList = some (.text t) := by
  have hkn : Known env purposesRow := ⟨purposesRow_mem, by intro h; exact absurd h (by decide)⟩
  have hr : purposesOk t = true := by
    have hpc : pieces ',' t = ps := by
      rcases hj with ⟨h1, h2⟩ | hj
      · rw [h1, h2]; rfl
      · rw [hj.1]
        refine splitOn_intercalate ps fun p hpm => ⟨hj.2.2 p hpm, ?_⟩
        rcases hp p hpm with rfl | rfl | rfl <;> decide
    unfold purposesOk
    rw [hpc]
    refine List.all_eq_true.2 fun p hpm => ?_
    rcases hp p hpm with rfl | rfl | rfl <;> decide
  have hc : check env s now purposesRow.rule t = .val (.text t) := by
    have : check env s now purposesRow.rule t = orReject (purposesOk t) (.text t) := rfl
    rw [this, hr]; rfl
  exact list_stored (e := purposesRow) hkn hu hk hv hs rfl (by decide) (by decide) (by decide) rfl hc

/-- A station that has the key. -/
def demoPurposes : St := { demo with cfg := putKey "IgnoredProfilePurposesOffline".toList (.text []) demo.cfg }

example : demoPurposes.user = some noChanges ∧ demoPurposes.cfg.keys "IgnoredProfilePurposesOffline".toList = some (.text []) ∧ bytes (Val.text []).show ≤ 500 ∧
    Joined ',' ["TxProfile".toList, "TxDefaultProfile".toList] "TxProfile,TxDefaultProfile".toList ∧ Purpose "TxProfile".toList ∧ Purpose "TxDefaultProfile".toList :=
  ⟨rfl, by simp [demoPurposes, putKey, upd], by decide, ⟨by decide +kernel, by decide, by decide +kernel⟩, .inr (.inr rfl), .inr (.inl rfl)⟩

/-- C206 is violated: an empty text, and a list that ends with a comma, are accepted for ConnectorEvseIds. -/
theorem C206_violated : ∀ t ∈ [[], "DE*ABC*E1,".toList], (change demoEnv demo 0 "ConnectorEvseIds".toList t .ok).2 = .accepted ∧
    ¬ ∃ ps, Joined ',' ps t ∧ ∀ p ∈ ps, EvseId p := by
  intro t ht
  have hno : ∀ ps, Joined ',' ps t → (∀ p ∈ ps, EvseId p) → splitAll [] t = ps := by
    intro ps hj _
    rw [hj.1]
    exact splitAll_intercalate ps hj.2.1 hj.2.2
  have hst : check demoEnv demo 0 evseIdsRow.rule t = .val (.text t) →
      (change demoEnv demo 0 "ConnectorEvseIds".toList t .ok).2 = .accepted := fun hc =>
    (list_stored (e := evseIdsRow) (u := noChanges) (v := .text "DE*ABC*E1".toList) (demo_known evseIdsRow_mem) rfl rfl (by decide) (by decide) rfl (by decide) (by decide)
      (by decide) rfl hc).1
  have hempty : ¬ EvseId [] := by unfold EvseId; decide
  simp only [List.mem_cons, List.not_mem_nil, or_false] at ht
  rcases ht with rfl | rfl
  · refine ⟨hst (by decide), ?_⟩
    rintro ⟨ps, hj, hp⟩
    have := hno ps hj hp
    exact hempty (hp [] (by rw [← this]; decide))
  · refine ⟨hst (by decide), ?_⟩
    rintro ⟨ps, hj, hp⟩
    have := hno ps hj hp
    exact hempty (hp [] (by rw [← this]; decide))

end Verif.Conf16
