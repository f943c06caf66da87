import Verif.Conf16.Theorems2
/-! C177, C178: values that have a format of their own: phase rotations, and offsets of the time. -/
set_option linter.unusedSimpArgs false

namespace Verif.Conf16

/-! ## What the values should look like -/

/-- The text is the list of pieces, separated by the character. -/
def Joined (c : Char) (ps : List Text) (t : Text) : Prop := t = List.intercalate [c] ps ∧ ps ≠ [] ∧ ∀ p ∈ ps, c ∉ p

/-- The orders of three phases. -/
def orders : List Text := ["RST".toList, "RTS".toList, "SRT".toList, "STR".toList, "TRS".toList, "TSR".toList]

/-- An element of ConnectorPhaseRotation for connector `i`, with the separator `sep` before the order of the phases. -/
def Element (i : Nat) (sep : Char) (p : Text) : Prop :=
  p = (toString i).toList ++ ".NotApplicable".toList ∨ p = (toString i).toList ++ ".Unknown".toList ∨ ∃ r ∈ orders, p = (toString i).toList ++ sep :: r

/-- The text without blanks, tabs and ends of lines. -/
def Bare (t t' : Text) : Prop := t' = t.filter (fun c => !(c == ' ' || (9 ≤ c.toNat && c.toNat ≤ 13)))

/-! ## Splitting -/

theorem splitAll_joined : ∀ (t acc : Text), ',' ∉ acc → Joined ',' (splitAll acc t) (acc ++ t) := by
  intro t
  induction t with
  | nil =>
    intro acc h
    refine ⟨by simp [splitAll, List.intercalate], by simp [splitAll], ?_⟩
    intro p hp
    simp only [splitAll, List.mem_singleton] at hp
    rw [hp]; exact h
  | cons x r ih =>
    intro acc h
    by_cases hx : x = ','
    · subst hx
      obtain ⟨h1, h2, h3⟩ := ih [] (by simp)
      have he : splitAll acc (',' :: r) = acc :: splitAll [] r := by simp [splitAll]
      rw [he]
      refine ⟨?_, by simp, ?_⟩
      · cases hs : splitAll [] r with
        | nil => exact absurd hs h2
        | cons a l =>
          rw [hs] at h1
          simp only [List.nil_append] at h1
          rw [h1]
          simp [List.intercalate, List.intersperse]
      · intro p hp
        rcases List.mem_cons.1 hp with rfl | hp
        · exact h
        · exact h3 p hp
    · have he : splitAll acc (x :: r) = splitAll (acc ++ [x]) r := by simp [splitAll, hx]
      rw [he]
      have := ih (acc ++ [x]) (by simp only [List.mem_append, List.mem_singleton, not_or]; exact ⟨h, fun e => hx e.symm⟩)
      rwa [List.append_assoc, List.singleton_append] at this

theorem splitAll_prefix : ∀ (p acc r : Text), ',' ∉ p → splitAll acc (p ++ r) = splitAll (acc ++ p) r := by
  intro p
  induction p with
  | nil => intro acc r _; simp
  | cons x q ih =>
    intro acc r h
    simp only [List.mem_cons, not_or] at h
    have he : splitAll acc (x :: q ++ r) = splitAll (acc ++ [x]) (q ++ r) := by
      simp [splitAll, Ne.symm h.1]
    rw [he, ih _ _ h.2, List.append_assoc, List.singleton_append]

theorem splitAll_intercalate : ∀ (ps : List Text), ps ≠ [] → (∀ p ∈ ps, ',' ∉ p) → splitAll [] (List.intercalate [','] ps) = ps := by
  intro ps
  induction ps with
  | nil => intro h; exact absurd rfl h
  | cons p l ih =>
    intro _ h
    cases l with
    | nil =>
      have : List.intercalate [','] [p] = p ++ [] := by simp [List.intercalate]
      rw [this, splitAll_prefix p [] [] (h p (by simp))]
      simp [splitAll]
    | cons q l =>
      have : List.intercalate [','] (p :: q :: l) = p ++ ',' :: List.intercalate [','] (q :: l) := by simp [List.intercalate, List.intersperse]
      rw [this, splitAll_prefix p [] _ (h p (by simp))]
      have he : splitAll ([] ++ p) (',' :: List.intercalate [','] (q :: l)) = p :: splitAll [] (List.intercalate [','] (q :: l)) := by simp [splitAll]
      rw [he, ih (by simp) (fun x hx => h x (by simp [hx]))]

/-! ## Digits -/

theorem digit_cases {c : Char} (h : DM.isDigit c = true) : c ∈ ['0', '1', '2', '3', '4', '5', '6', '7', '8', '9'] := by
  simp only [DM.isDigit, decide_eq_true_eq] at h
  have h0 : '0'.toNat = 48 := rfl
  have h9 : '9'.toNat = 57 := rfl
  rw [h0, h9] at h
  rw [← Char.ofNat_toNat c]
  generalize c.toNat = n at h
  have : n = 48 ∨ n = 49 ∨ n = 50 ∨ n = 51 ∨ n = 52 ∨ n = 53 ∨ n = 54 ∨ n = 55 ∨ n = 56 ∨ n = 57 := by omega
  rcases this with rfl | rfl | rfl | rfl | rfl | rfl | rfl | rfl | rfl | rfl <;> decide

theorem digit_text {c : Char} (h : DM.isDigit c = true) : (toString (DM.natOf [c])).toList = [c] := by
  have := digit_cases h
  simp only [List.mem_cons, List.not_mem_nil, or_false] at this
  rcases this with rfl | rfl | rfl | rfl | rfl | rfl | rfl | rfl | rfl | rfl <;> decide

theorem small_text {i : Nat} (h : i ≤ 9) : ∃ c, (toString i).toList = [c] ∧ DM.isDigit c = true ∧ DM.natOf [c] = i ∧ c.utf8Size = 1 ∧ isSpace c = false ∧ c ≠ ',' := by
  have : i = 0 ∨ i = 1 ∨ i = 2 ∨ i = 3 ∨ i = 4 ∨ i = 5 ∨ i = 6 ∨ i = 7 ∨ i = 8 ∨ i = 9 := by omega
  rcases this with rfl | rfl | rfl | rfl | rfl | rfl | rfl | rfl | rfl | rfl
  · exact ⟨'0', by decide, by decide, by decide, by decide, by decide, by decide⟩
  · exact ⟨'1', by decide, by decide, by decide, by decide, by decide, by decide⟩
  · exact ⟨'2', by decide, by decide, by decide, by decide, by decide, by decide⟩
  · exact ⟨'3', by decide, by decide, by decide, by decide, by decide, by decide⟩
  · exact ⟨'4', by decide, by decide, by decide, by decide, by decide, by decide⟩
  · exact ⟨'5', by decide, by decide, by decide, by decide, by decide, by decide⟩
  · exact ⟨'6', by decide, by decide, by decide, by decide, by decide, by decide⟩
  · exact ⟨'7', by decide, by decide, by decide, by decide, by decide, by decide⟩
  · exact ⟨'8', by decide, by decide, by decide, by decide, by decide, by decide⟩
  · exact ⟨'9', by decide, by decide, by decide, by decide, by decide, by decide⟩

/-- `stoi` of one character. -/
theorem stoi_one {c : Char} {n : Int} (h : stoi [c] = .val n) : DM.isDigit c = true ∧ n = DM.natOf [c] := by
  by_cases hd : DM.isDigit c = true
  · refine ⟨hd, ?_⟩
    rw [stoi_digits (by simp) (by simp [hd])] at h
    split at h
    · cases h
    · injection h with h; exact h.symm
  · exfalso
    unfold stoi at h
    by_cases hs : isSpace c = true
    · simp [List.dropWhile, hs] at h
    · simp only [Bool.not_eq_true] at hs hd
      have : List.dropWhile isSpace [c] = [c] := by simp [List.dropWhile, hs]
      rw [this] at h
      have hz : List.takeWhile DM.isDigit (if ([c].head? == some '-' || [c].head? == some '+') = true then [c].tail else [c]) = [] := by
        split
        · rfl
        · simp [List.takeWhile, hd]
      dsimp only at h
      rw [hz] at h
      simp at h

theorem element_some {n : Int} {e : Text} (h : rotationElement n e = true) : ∃ (i : Nat) (sep : Char), (i : Int) ≤ n ∧ i ≤ 9 ∧ Element i sep e := by
  unfold rotationElement at h
  simp only [Bool.and_eq_true, decide_eq_true_eq] at h
  obtain ⟨⟨hb, hc⟩, hp⟩ := h
  have hord : ∃ r ∈ orders, e.drop 2 = r := by
    simp only [List.any_eq_true, beq_iff_eq] at hp
    obtain ⟨r, hr, hre⟩ := hp
    exact ⟨r, hr, hre.symm⟩
  obtain ⟨r, hr, hre⟩ := hord
  match e, hb, hc, hre with
  | [], hb, _, _ => simp [bytes] at hb
  | [a], _, _, hre =>
    exfalso
    simp only [List.drop_succ_cons, List.drop_nil] at hre
    subst hre
    revert hr
    decide
  | a :: sep :: l, _, hc, hre =>
    simp only [List.drop_succ_cons, List.drop_zero] at hre
    subst hre
    simp only [List.take_succ_cons, List.take_zero] at hc
    cases hs : stoi [a] with
    | val m =>
      rw [hs] at hc
      simp only [decide_eq_true_eq] at hc
      obtain ⟨hd, rfl⟩ := stoi_one hs
      refine ⟨DM.natOf [a], sep, hc.2, ?_, .inr (.inr ⟨l, hr, ?_⟩)⟩
      · have := digit_cases hd
        simp only [List.mem_cons, List.not_mem_nil, or_false] at this
        rcases this with rfl | rfl | rfl | rfl | rfl | rfl | rfl | rfl | rfl | rfl <;> decide
      · rw [digit_text hd]; rfl
    | invalid => rw [hs] at hc; cases hc
    | range => rw [hs] at hc; cases hc

theorem element_ok {n : Int} {i : Nat} {p : Text} (hi : (i : Int) ≤ n) (h9 : i ≤ 9) (h : Element i '.' p) :
    ((List.range (n + 1).toNat).any (fun i => p == (toString i).toList ++ ".NotApplicable".toList || p == (toString i).toList ++ ".Unknown".toList) || rotationElement n p) = true := by
  have hr : i ∈ List.range (n + 1).toNat := by rw [List.mem_range]; omega
  rw [Bool.or_eq_true]
  rcases h with h | h | ⟨r, hr', h⟩
  · exact .inl (List.any_eq_true.2 ⟨i, hr, by rw [h]; simp⟩)
  · exact .inl (List.any_eq_true.2 ⟨i, hr, by rw [h]; simp⟩)
  · right
    obtain ⟨c, hc, hd, hn, hu, _⟩ := small_text h9
    rw [hc] at h
    subst h
    unfold rotationElement
    have hb : bytes ([c] ++ '.' :: r) = 5 := by
      simp only [bytes, List.singleton_append, List.map_cons, List.sum_cons, hu]
      revert hr'
      simp only [orders, List.mem_cons, List.not_mem_nil, or_false]
      rintro (rfl | rfl | rfl | rfl | rfl | rfl) <;> decide
    have hst : stoi (([c] ++ '.' :: r).take 1) = .val (i : Int) := by
      show stoi [c] = _
      rw [stoi_digits (by simp) (by simp [hd]), hn, if_neg (by omega)]
    rw [hst, hb]
    simp only [decide_true, Bool.true_and, Bool.and_eq_true, decide_eq_true_eq, List.any_eq_true, beq_iff_eq]
    exact ⟨⟨by omega, hi⟩, r, hr', rfl⟩

theorem element_bare {i : Nat} {p : Text} (h9 : i ≤ 9) (h : Element i '.' p) : ',' ∉ p := by
  obtain ⟨c, hc, _, _, _, _, hcm⟩ := small_text h9
  have key : ∀ q : Text, ',' ∉ q → ',' ∉ [c] ++ q := by
    intro q hq
    simp only [List.singleton_append, List.mem_cons, not_or]
    exact ⟨Ne.symm hcm, hq⟩
  unfold Element at h
  rw [hc] at h
  rcases h with h | h | ⟨r, hr, h⟩
  · rw [h]; exact key _ (by decide)
  · rw [h]; exact key _ (by decide)
  · rw [h]
    apply key
    revert hr
    simp only [orders, List.mem_cons, List.not_mem_nil, or_false]
    rintro (rfl | rfl | rfl | rfl | rfl | rfl) <;> decide

/-! ## C177 -/

/-- C177, partial: a value that is accepted for ConnectorPhaseRotation is, white space aside, a list of elements separated by commas; each names a connector of the station
or connector 0, and says NotApplicable, Unknown or one of the six orders of the phases.
Missing: the character before the order of the phases is arbitrary (see `C177_separator_violated`). -/
theorem C177_sound_partial {env : Env} {s : St} {now : Int} {k t bare : Text} {w : Write} {n : Nat} (hf : Fresh s.cfg) (hk : SameName k "ConnectorPhaseRotation".toList)
    (hn : s.cfg.keys "NumberOfConnectors".toList = some (.int n)) (hb : Bare t bare) (ha : ¬ Refused (change env s now k t w).2) :
    ∃ ps, Joined ',' ps bare ∧ ∀ p ∈ ps, ∃ i sep, i ≤ n ∧ Element i sep p := by
  have hkn : Known env rotationRow := ⟨rotationRow_mem, by intro h; exact absurd h (by decide)⟩
  obtain ⟨_, _, x, a, hc, _⟩ := accepted_key hkn (sameName_iff.mp hk) hf (by decide) ha
  have hr : rotationOk (numberOfConnectors s) t = true := by
    have : check env s now rotationRow.rule t = orReject (rotationOk (numberOfConnectors s) t) (.text t) := rfl
    rw [this] at hc
    exact (ite_val hc).1
  have hnc : numberOfConnectors s = n := by unfold numberOfConnectors; rw [hn]
  rw [hnc] at hr
  unfold rotationOk at hr
  have hbare : t.filter (fun c => !isSpace c) = bare := hb.symm
  rw [hbare] at hr
  refine ⟨splitAll [] bare, by have := splitAll_joined bare [] (by simp); rwa [List.nil_append] at this, fun p hp => ?_⟩
  have := List.all_eq_true.1 hr p hp
  rw [Bool.or_eq_true] at this
  rcases this with h | h
  · obtain ⟨i, hi, he⟩ := List.any_eq_true.1 h
    rw [List.mem_range] at hi
    simp only [Bool.or_eq_true, beq_iff_eq] at he
    refine ⟨i, '.', by omega, ?_⟩
    rcases he with he | he
    · exact .inl he
    · exact .inr (.inl he)
  · obtain ⟨i, sep, hi, _, he⟩ := element_some h
    exact ⟨i, sep, by omega, he⟩

/-- C177, partial: each such list, with points before the orders of the phases, is accepted and stored.
Missing: connectors from 10 on (see `C177_ten_violated`). -/
theorem C177_complete_partial {env : Env} {s : St} {u : Maps} {now : Int} {k t bare : Text} {n : Nat} {v : Val} {ps : List Text} (hu : s.user = some u)
    (hk : SameName k "ConnectorPhaseRotation".toList) (hn : s.cfg.keys "NumberOfConnectors".toList = some (.int n))
    (hv : s.cfg.keys "ConnectorPhaseRotation".toList = some v) (hs : bytes v.show ≤ 500) (hb : Bare t bare) (hj : Joined ',' ps bare)
    (hp : ∀ p ∈ ps, ∃ i, i ≤ n ∧ i ≤ 9 ∧ Element i '.' p) :
    (change env s now k t .ok).2 = .accepted ∧ (change env s now k t .ok).1.cfg.keys "ConnectorPhaseRotation".toList = some (.text t) := by
  have hkn : Known env rotationRow := ⟨rotationRow_mem, by intro h; exact absurd h (by decide)⟩
  have hr : rotationOk n t = true := by
    unfold rotationOk
    have hbare : t.filter (fun c => !isSpace c) = bare := hb.symm
    rw [hbare, hj.1, splitAll_intercalate ps hj.2.1 hj.2.2]
    refine List.all_eq_true.2 fun p hpm => ?_
    obtain ⟨i, h1, h2, h3⟩ := hp p hpm
    exact element_ok (by omega) h2 h3
  have hnc : numberOfConnectors s = n := by unfold numberOfConnectors; rw [hn]
  have hc : check env s now rotationRow.rule t = .val (.text t) := by
    have : check env s now rotationRow.rule t = orReject (rotationOk (numberOfConnectors s) t) (.text t) := rfl
    rw [this, hnc, hr]; rfl
  have hch : change env s now k t .ok = storeKey s "ConnectorPhaseRotation".toList (.text t) .ok .accepted :=
    change_val (e := rotationRow) (v := v) hkn (sameName_iff.mp hk) hv hs rfl (by decide) (by decide) rfl hc
  rw [hch]
  unfold storeKey
  simp only [store_ok _ hu]
  exact ⟨rfl, by simp [upd]⟩

example : Bare "0.RST, 1.Unknown".toList "0.RST,1.Unknown".toList ∧ Joined ',' ["0.RST".toList, "1.Unknown".toList] "0.RST,1.Unknown".toList ∧
    Element 0 '.' "0.RST".toList ∧ Element 1 '.' "1.Unknown".toList := by
  refine ⟨by unfold Bare; decide +kernel, ⟨by decide +kernel, by decide, by decide +kernel⟩, .inr (.inr ⟨"RST".toList, by decide, by decide +kernel⟩), .inr (.inl (by decide +kernel))⟩

/-- C177 is violated: between the connector and the order of the phases any character is taken. -/
theorem C177_separator_violated : (change demoEnv demo 0 "ConnectorPhaseRotation".toList "1xRST".toList .ok).2 = .accepted ∧
    ¬ ∃ i, Element i '.' "1xRST".toList := by
  refine ⟨C133_loose_violated.2.2.1, ?_⟩
  rintro ⟨i, h⟩
  have hx : 'x' ∈ "1xRST".toList := by decide
  have hdig : ∀ c ∈ (toString i).toList, c.isDigit = true := by
    intro c hc
    rw [Nat.toString_eq_repr] at hc
    exact Nat.isDigit_of_mem_toDigits (b := 10) (by decide) (by decide) (by simpa [Nat.repr] using hc)
  have key : ∀ q : Text, 'x' ∉ q → "1xRST".toList ≠ (toString i).toList ++ q := by
    intro q hq he
    rw [he, List.mem_append] at hx
    rcases hx with hx | hx
    · exact absurd (hdig _ hx) (by decide)
    · exact hq hx
  rcases h with h | h | ⟨r, hr, h⟩
  · exact key _ (by decide) h
  · exact key _ (by decide) h
  · refine key _ ?_ h
    revert hr
    simp only [orders, List.mem_cons, List.not_mem_nil, or_false]
    rintro (rfl | rfl | rfl | rfl | rfl | rfl) <;> decide

/-- A station with twelve connectors. -/
def dozen : St := { demo with cfg := { demo.cfg with keys := upd demo.cfg.keys "NumberOfConnectors".toList (.int 12) } }

/-- C177 is violated: the order of the phases cannot be set for connectors from 10 on: only one digit is read. -/
theorem C177_ten_violated : (change demoEnv dozen 0 "ConnectorPhaseRotation".toList "10.RST".toList .ok).2 = .rejected ∧ Element 10 '.' "10.RST".toList ∧
    dozen.cfg.keys "NumberOfConnectors".toList = some (.int 12) := by
  refine ⟨by decide +kernel, .inr (.inr ⟨"RST".toList, by decide, by decide +kernel⟩), by decide +kernel⟩

/-! ## C178 -/

/-- The text begins with an integer: white space, then the integer, then anything that is no digit. -/
def Begins (p : Text) (n : Int) : Prop :=
  ∃ ws q rest, p = ws ++ q ++ rest ∧ (∀ c ∈ ws, isSpace c = true) ∧ DM.IsIntegerText q n ∧ ∀ c, rest.head? = some c → DM.isDigit c = false

/-- An offset of the time: hours and minutes. -/
def IsOffset (t : Text) : Prop := ∃ h m nh nm, t = h ++ ':' :: m ∧ DM.IsIntegerText h nh ∧ DM.IsIntegerText m nm ∧ -24 ≤ nh ∧ nh ≤ 24 ∧ 0 ≤ nm ∧ nm ≤ 59

theorem head_dropWhile {p : Char → Bool} : ∀ (l : Text) (c : Char), (l.dropWhile p).head? = some c → p c = false := by
  intro l
  induction l with
  | nil => intro c h; simp at h
  | cons x r ih =>
    intro c h
    rw [List.dropWhile_cons] at h
    split at h
    · exact ih c h
    · rename_i hx
      simp only [List.head?_cons, Option.some.injEq] at h
      subst h
      simpa using hx

theorem all_takeWhile {p : Char → Bool} : ∀ (l : Text), ∀ c ∈ l.takeWhile p, p c = true := by
  intro l
  induction l with
  | nil => intro c h; simp at h
  | cons x r ih =>
    intro c h
    rw [List.takeWhile_cons] at h
    split at h
    · rename_i hx
      rcases List.mem_cons.1 h with rfl | h
      · exact hx
      · exact ih c h
    · cases h

theorem stoi_begins {p : Text} {n : Int} (h : stoi p = .val n) : Begins p n := by
  unfold stoi at h
  dsimp only at h
  have hsplit : p = p.takeWhile isSpace ++ p.dropWhile isSpace := List.takeWhile_append_dropWhile.symm
  have hws := all_takeWhile (p := isSpace) p
  generalize p.takeWhile isSpace = ws at hsplit hws
  generalize p.dropWhile isSpace = t at hsplit h
  subst hsplit
  have key : ∀ (pre r : Text) (z : Int), t = pre ++ r → (r.takeWhile DM.isDigit).isEmpty = false →
      DM.IsIntegerText (pre ++ r.takeWhile DM.isDigit) z → Begins (ws ++ t) z := by
    intro pre r z ht _ hi
    refine ⟨ws, pre ++ r.takeWhile DM.isDigit, r.dropWhile DM.isDigit, ?_, hws, hi, head_dropWhile r⟩
    rw [ht]
    simp only [List.append_assoc, List.takeWhile_append_dropWhile]
  cases t with
  | nil => simp at h
  | cons c r =>
    simp only [List.head?_cons, List.tail_cons] at h
    by_cases hm : c = '-'
    · subst hm
      simp only [beq_self_eq_true, Bool.true_or, if_true] at h
      cases hds : (r.takeWhile DM.isDigit).isEmpty with
      | true => rw [hds] at h; simp at h
      | false =>
        rw [hds] at h
        simp only [Bool.false_eq_true, if_false] at h
        split at h
        · cases h
        · injection h with h
          refine key ['-'] r n rfl hds ?_
          refine ⟨_, ?_, (DM.all_digits _).mp (List.all_eq_true.2 (all_takeWhile r)), .inr (.inr ⟨rfl, ?_⟩)⟩
          · intro he; rw [he] at hds; cases hds
          · rw [← h, DM.natOf_eq]
    · by_cases hp : c = '+'
      · subst hp
        simp only [show (some '+' == some '-') = false from by decide, beq_self_eq_true, Bool.or_true, if_true, Bool.false_eq_true, if_false] at h
        cases hds : (r.takeWhile DM.isDigit).isEmpty with
        | true => rw [hds] at h; simp at h
        | false =>
          rw [hds] at h
          simp only [Bool.false_eq_true, if_false] at h
          split at h
          · cases h
          · injection h with h
            refine key ['+'] r n rfl hds ?_
            refine ⟨_, ?_, (DM.all_digits _).mp (List.all_eq_true.2 (all_takeWhile r)), .inr (.inl ⟨rfl, ?_⟩)⟩
            · intro he; rw [he] at hds; cases hds
            · rw [← h, DM.natOf_eq]
      · simp only [show ((some c == some '-') = false) from by simp [hm], show ((some c == some '+') = false) from by simp [hp], Bool.or_false, Bool.false_eq_true,
          if_false] at h
        cases hds : ((c :: r).takeWhile DM.isDigit).isEmpty with
        | true => rw [hds] at h; simp at h
        | false =>
          rw [hds] at h
          simp only [Bool.false_eq_true, if_false] at h
          split at h
          · cases h
          · injection h with h
            refine key [] (c :: r) n rfl hds ?_
            refine ⟨_, ?_, (DM.all_digits _).mp (List.all_eq_true.2 (all_takeWhile (c :: r))), .inl ⟨rfl, ?_⟩⟩
            · intro he; rw [he] at hds; cases hds
            · rw [← h, DM.natOf_eq]

theorem splitOn_prefix (c : Char) : ∀ (p acc r : Text), c ∉ p → splitOn c acc (p ++ r) = splitOn c (acc ++ p) r := by
  intro p
  induction p with
  | nil => intro acc r _; simp
  | cons x q ih =>
    intro acc r h
    simp only [List.mem_cons, not_or] at h
    have he : splitOn c acc (x :: q ++ r) = splitOn c (acc ++ [x]) (q ++ r) := by
      simp [splitOn, Ne.symm h.1]
    rw [he, ih _ _ h.2, List.append_assoc, List.singleton_append]

/-- Two pieces. -/
theorem pieces_two {c : Char} {t h m : Text} (hp : pieces c t = [h, m]) : t = h ++ c :: m ∨ t = h ++ c :: (m ++ [c]) := by
  have one : ∀ (t acc m : Text), splitOn c acc t = [m] → acc ++ t = m ∨ acc ++ t = m ++ [c] := by
    intro t
    induction t with
    | nil =>
      intro acc m h
      unfold splitOn at h
      split at h
      · cases h
      · injection h with h; left; simp [h]
    | cons x r ih =>
      intro acc m h
      unfold splitOn at h
      split at h
      · rename_i hx
        injection h with h1 h2
        subst hx
        right
        have : r = [] := by
          cases r with
          | nil => rfl
          | cons y l =>
            exfalso
            have hne : ∀ (l acc : Text), acc ≠ [] → splitOn x acc l ≠ [] := by
              intro l
              induction l with
              | nil => intro acc ha; unfold splitOn; cases acc <;> simp_all
              | cons z l ih2 =>
                intro acc ha
                unfold splitOn
                split
                · simp
                · exact ih2 _ (by simp)
            unfold splitOn at h2
            split at h2
            · cases h2
            · exact hne l _ (by simp) h2
        rw [this, h1]
      · have := ih _ _ h
        rwa [List.append_assoc, List.singleton_append] at this
  have two : ∀ (t acc : Text), splitOn c acc t = [h, m] → acc ++ t = h ++ c :: m ∨ acc ++ t = h ++ c :: (m ++ [c]) := by
    intro t
    induction t with
    | nil =>
      intro acc h
      unfold splitOn at h
      split at h <;> cases h
    | cons x r ih =>
      intro acc h
      unfold splitOn at h
      split at h
      · rename_i hx
        injection h with h1 h2
        subst hx h1
        rcases one r [] m h2 with hh | hh
        · left; rw [List.nil_append] at hh; rw [hh]
        · right; rw [List.nil_append] at hh; rw [hh]
      · have := ih _ h
        rwa [List.append_assoc, List.singleton_append] at this
  have := two t [] hp
  rwa [List.nil_append] at this

/-- The keys that hold an offset. -/
def offsetKeys : List Text := ["TimeOffset".toList, "TimeOffsetNextTransition".toList]

theorem offset_rows : table.all (fun e => !offsetKeys.any (· == e.name) || (e.ro == .no && e.rule == .offset && e.guard == .none)) = true := by decide +kernel

theorem offset_row {e : Key} (he : e ∈ table) (hn : e.name ∈ offsetKeys) : e.ro = .no ∧ e.rule = .offset ∧ e.guard = .none := by
  have hrow := List.all_eq_true.mp offset_rows e he
  have hany : offsetKeys.any (· == e.name) = true := by simpa using hn
  rw [hany] at hrow
  simp only [Bool.not_true, Bool.false_or, Bool.and_eq_true, beq_iff_eq] at hrow
  exact ⟨hrow.1.1, hrow.1.2, hrow.2⟩

/-- C178, partial: a value that is accepted as an offset of the time consists of two parts with a colon between them, the first begins with an integer from -24 to 24, the
second with one from 0 to 59.
Missing: what follows the integers is not looked at (see `C178_violated`). -/
theorem C178_sound_partial {env : Env} {s : St} {now : Int} {e : Key} {k t : Text} {w : Write} (hf : Fresh s.cfg) (he : Known env e) (hn : e.name ∈ offsetKeys)
    (hk : SameName k e.name) (ha : ¬ Refused (change env s now k t w).2) :
    ∃ h m nh nm, (t = h ++ ':' :: m ∨ t = h ++ ':' :: (m ++ [':'])) ∧ Begins h nh ∧ Begins m nm ∧ -24 ≤ nh ∧ nh ≤ 24 ∧ 0 ≤ nm ∧ nm ≤ 59 := by
  obtain ⟨hro, hru, hg⟩ := offset_row he.1 hn
  obtain ⟨_, _, x, a, hc, _⟩ := accepted_key he (sameName_iff.mp hk) hf (by rw [hru]; decide) ha
  rw [hru] at hc
  have hr : offsetOk t = true := by
    have : check env s now .offset t = orReject (offsetOk t) (.text t) := rfl
    rw [this] at hc
    exact (ite_val hc).1
  unfold offsetOk at hr
  split at hr
  · rename_i h m hp
    split at hr
    · rename_i nh nm hh hm
      simp only [decide_eq_true_eq] at hr
      exact ⟨h, m, nh, nm, pieces_two hp, stoi_begins hh, stoi_begins hm, hr.1, hr.2.1, hr.2.2.1, hr.2.2.2⟩
    · cases hr
  · cases hr

theorem integer_chars {q : Text} {n : Int} (h : DM.IsIntegerText q n) : q ≠ [] ∧ ':' ∉ q := by
  obtain ⟨ds, hne, hd, hc⟩ := h
  have hcol : ':' ∉ ds := by
    intro hm
    have := hd _ hm
    revert this
    decide
  rcases hc with ⟨rfl, _⟩ | ⟨rfl, _⟩ | ⟨rfl, _⟩
  · exact ⟨hne, hcol⟩
  · exact ⟨by simp, by simp [hcol]⟩
  · exact ⟨by simp, by simp [hcol]⟩

theorem offsetOk_of {t : Text} (ht : IsOffset t) : offsetOk t = true := by
  obtain ⟨h, m, nh, nm, rfl, hh, hm, h1, h2, h3, h4⟩ := ht
  have hp : pieces ':' (h ++ ':' :: m) = [h, m] := by
    unfold pieces
    rw [splitOn_prefix _ _ _ _ (integer_chars hh).2]
    have : splitOn ':' ([] ++ h) (':' :: m) = h :: splitOn ':' [] m := by simp [splitOn]
    rw [this]
    have hm2 : splitOn ':' [] m = [m] := by
      have := splitOn_prefix ':' m [] [] (integer_chars hm).2
      rw [List.append_nil] at this
      rw [this]
      have hne := (integer_chars hm).1
      cases m with
      | nil => exact absurd rfl hne
      | cons x r => simp [splitOn]
    rw [hm2]
  unfold offsetOk
  rw [hp]
  simp only [stoi_range hh (by omega) (by omega), stoi_range hm (by omega) (by omega), decide_eq_true_eq]
  exact ⟨h1, h2, h3, h4⟩

/-- C178, partial: each offset of the time is accepted and stored, when the key has a value already. -/
theorem C178_complete {env : Env} {s : St} {u : Maps} {now : Int} {e : Key} {k t : Text} {v : Val} (hu : s.user = some u) (he : Known env e) (hn : e.name ∈ offsetKeys)
    (hk : SameName k e.name) (hv : s.cfg.keys e.name = some v) (hs : bytes v.show ≤ 500) (ht : IsOffset t) :
    (change env s now k t .ok).2 = .accepted ∧ (change env s now k t .ok).1.cfg.keys e.name = some (.text t) := by
  obtain ⟨hro, hru, hg⟩ := offset_row he.1 hn
  have hr : offsetOk t = true := offsetOk_of ht
  have hc : check env s now e.rule t = .val (.text t) := by
    rw [hru]
    have : check env s now .offset t = orReject (offsetOk t) (.text t) := rfl
    rw [this, hr]; rfl
  have hch := change_val (w := .ok) he (sameName_iff.mp hk) hv hs (by rw [hro]; rfl) (by rw [hru]; decide) (by rw [hru]; decide) (by unfold blocked; rw [hg]) hc
  rw [hch, hru]
  unfold storeKey
  simp only [store_ok _ hu]
  exact ⟨rfl, by simp [upd]⟩

example : IsOffset "-05:30".toList := by
  refine ⟨"-05".toList, "30".toList, -5, 30, by decide +kernel, ⟨"05".toList, by decide, ?_, .inr (.inr ⟨by decide, by decide⟩)⟩,
    ⟨"30".toList, by decide, ?_, .inl ⟨rfl, by decide⟩⟩, by decide, by decide, by decide, by decide⟩ <;>
  · unfold DM.Digits
    decide

/-- C178 is violated: what follows the digits is not looked at. -/
theorem C178_violated : (change demoEnv demo 0 "TimeOffset".toList "1 pm:0x10".toList .ok).2 = .accepted ∧ ¬ IsOffset "1 pm:0x10".toList := by
  refine ⟨by decide +kernel, ?_⟩
  rintro ⟨h, m, nh, nm, ht, hh, hm, _⟩
  have hx : 'p' ∈ h ++ ':' :: m := by rw [← ht]; decide
  have hc : ∀ {q : Text} {n : Int}, DM.IsIntegerText q n → 'p' ∉ q := by
    rintro q n ⟨ds, _, hd, hc⟩
    have hp : 'p' ∉ ds := by
      intro hm
      have := hd _ hm
      revert this
      decide
    rcases hc with ⟨rfl, _⟩ | ⟨rfl, _⟩ | ⟨rfl, _⟩
    · exact hp
    · simp [hp]
    · simp [hp]
  rw [List.mem_append, List.mem_cons] at hx
  rcases hx with hx | hx | hx
  · exact hc hh hx
  · revert hx; decide
  · exact hc hm hx

end Verif.Conf16
