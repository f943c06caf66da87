import Verif.Conf16.Demo
/-! C135: the price texts of the languages. -/

namespace Verif.Conf16

theorem no_comma : table.all (fun e => !(e.name.map Char.toLower).contains ',') = true := by decide +kernel

theorem entry_comma {env : Env} {k : Text} (hk : ',' ∈ k) : entry env k = none := by
  cases h : entry env k with
  | none => rfl
  | some e =>
    have he := entry_some h
    have h1 := List.all_eq_true.mp no_comma e he.1.1
    have h2 : k.map Char.toLower = e.name.map Char.toLower := by simpa [ciEq] using he.2
    have h3 : ',' ∈ k.map Char.toLower := List.mem_map.mpr ⟨',', hk, by decide⟩
    rw [h2] at h3
    simp [h3] at h1

theorem splitOn_pos (c : Char) : ∀ (t acc : Text), acc ≠ [] ∨ t ≠ [] → 0 < (splitOn c acc t).length
  | [], acc, h => by
    have : acc ≠ [] := by simpa using h
    simp [splitOn, this]
  | x :: r, acc, _ => by
    unfold splitOn
    split
    · simp
    · exact splitOn_pos c r _ (Or.inl (by simp))

theorem splitOn_length (c : Char) {r : Text} (hr : r ≠ []) : ∀ (p acc : Text), 1 < (splitOn c acc (p ++ c :: r)).length
  | [], acc => by
    have := splitOn_pos c r [] (Or.inr hr)
    simp only [List.nil_append, splitOn, if_true, List.length_cons]
    omega
  | x :: p, acc => by
    rw [List.cons_append]
    unfold splitOn
    split
    · have := splitOn_pos c (p ++ c :: r) [] (Or.inr (by simp))
      simp only [List.length_cons]
      omega
    · exact splitOn_length c hr p _

/-- C135: the text of the price in a language is known exactly if CustomMultiLanguageMessages is true, on a station with prices and without keys of its own. -/
theorem C135_language (env : Env) (s : St) (lang : Text) (hl : lang ≠ []) (hp : env.sup .price = true) (hc : env.sup .custom = false) :
    get env s ("DefaultPriceText,".toList ++ lang) ≠ .unknown ↔ s.cfg.keys "CustomMultiLanguageMessages".toList = some (.bool true) := by
  have hm : ',' ∈ "DefaultPriceText,".toList ++ lang := List.mem_append_left _ (by decide)
  have hpre : pricePrefix.isPrefixOf ("DefaultPriceText,".toList ++ lang) = true := by
    rw [List.isPrefixOf_iff_prefix]
    exact ⟨',' :: lang, rfl⟩
  have hlen : 1 < (pieces ',' ("DefaultPriceText,".toList ++ lang)).length := splitOn_length ',' hl pricePrefix []
  have hne : ∀ k ro v, mkKv k ro v ≠ .unknown := by
    intro k ro v
    unfold mkKv
    repeat' split
    all_goals simp
  unfold get
  rw [entry_comma hm]
  simp only [hp, hpre, hlen, hc, Bool.true_and, Bool.and_true, decide_true, Bool.false_eq_true, if_false]
  by_cases h : s.cfg.keys "CustomMultiLanguageMessages".toList = some (.bool true)
  · have : multiLang s = true := by unfold multiLang; rw [h]; rfl
    rw [if_pos this]
    refine ⟨fun _ => h, fun _ => ?_⟩
    unfold reportPrice
    split <;> exact hne _ _ _
  · have : multiLang s = false := by
      unfold multiLang
      simpa using h
    rw [if_neg (by simp [this])]
    exact ⟨fun hx => absurd rfl hx, fun hx => absurd hx h⟩

theorem splitOn_none (c : Char) : ∀ (t acc : Text), c ∉ t → acc ≠ [] ∨ t ≠ [] → splitOn c acc t = [acc ++ t]
  | [], acc, _, h => by
    have : acc ≠ [] := by simpa using h
    simp [splitOn, this]
  | x :: r, acc, h, _ => by
    simp only [List.mem_cons, not_or] at h
    unfold splitOn
    rw [if_neg (fun hx => h.1 hx.symm), splitOn_none c r _ h.2 (Or.inl (by simp))]
    simp

theorem splitOn_first (c : Char) (r : Text) : ∀ (p acc : Text), c ∉ p → splitOn c acc (p ++ c :: r) = (acc ++ p) :: splitOn c [] r
  | [], acc, _ => by simp [splitOn]
  | x :: p, acc, h => by
    simp only [List.mem_cons, not_or] at h
    rw [List.cons_append, show splitOn c acc (x :: (p ++ c :: r)) =
      if x = c then acc :: splitOn c [] (p ++ c :: r) else splitOn c (acc ++ [x]) (p ++ c :: r) from rfl]
    rw [if_neg (fun hx => h.1 hx.symm), splitOn_first c r p _ h.2]
    simp

theorem pieces_lang {lang : Text} (h0 : lang ≠ []) (hc : ',' ∉ lang) : pieces ',' ("DefaultPriceText,".toList ++ lang) = [pricePrefix, lang] := by
  show splitOn ',' [] (pricePrefix ++ ',' :: lang) = _
  rw [splitOn_first _ _ _ _ (by decide), splitOn_none _ _ _ hc (Or.inr h0)]
  rfl

/-- The key of a language. -/
def langKey (lang : Text) : Text := "DefaultPriceText,".toList ++ lang

theorem get_lang {env : Env} {s : St} {lang : Text} (h0 : lang ≠ []) (hc : ',' ∉ lang) (hp : env.sup .price = true)
    (hm : s.cfg.keys "CustomMultiLanguageMessages".toList = some (.bool true)) : get env s (langKey lang) = reportPrice env s lang := by
  have hmem : ',' ∈ langKey lang := List.mem_append_left _ (by decide)
  have hpre : pricePrefix.isPrefixOf (langKey lang) = true := by
    rw [List.isPrefixOf_iff_prefix]
    exact ⟨',' :: lang, rfl⟩
  have hml : multiLang s = true := by unfold multiLang; rw [hm]; rfl
  unfold get
  rw [entry_comma hmem]
  have hpc : pieces ',' (langKey lang) = [pricePrefix, lang] := pieces_lang h0 hc
  simp only [hp, hpre, hml, hpc, Bool.true_and]
  rfl

theorem find_put (l : List (Text × J)) (lang other : Text) (j : J) :
    (putPrice l lang j).find? (fun p => p.1 == other) = if lang = other then some (lang, j) else l.find? (fun p => p.1 == other) := by
  induction l with
  | nil =>
    unfold putPrice
    by_cases h : lang = other <;> simp [h]
  | cons p r ih =>
    unfold putPrice
    by_cases h1 : p.1 = lang
    · rw [if_pos (by simp [h1])]
      by_cases h : lang = other
      · simp [h]
      · have h2 : ¬ p.1 = other := by rw [h1]; exact h
        simp [h, h2]
    · rw [if_neg (by simp [h1]), List.find?_cons, List.find?_cons, ih]
      by_cases h : lang = other
      · have h2 : (p.1 == other) = false := by rw [← h]; simp [h1]
        rw [h2, if_pos h]
      · rw [if_neg h, if_neg h]

theorem change_lang {env : Env} {s : St} {now : Int} {lang t : Text} {w : Write} (h0 : lang ≠ []) (hc : ',' ∉ lang)
    (hp : env.sup .price = true) (hm : s.cfg.keys "CustomMultiLanguageMessages".toList = some (.bool true))
    (ht : get env s (langKey lang) ≠ .throws) : change env s now (langKey lang) t w = setPrice env s (langKey lang) t w := by
  have hmem : ',' ∈ langKey lang := List.mem_append_left _ (by decide)
  have hauth : ciEq (langKey lang) authKey = false := by
    cases h : ciEq (langKey lang) authKey with
    | false => rfl
    | true =>
      have h2 : (langKey lang).map Char.toLower = authKey.map Char.toLower := by simpa [ciEq] using h
      have h3 : ',' ∈ (langKey lang).map Char.toLower := List.mem_map.mpr ⟨',', hmem, by decide⟩
      rw [h2] at h3
      revert h3
      decide
  have hprof : ciEq (langKey lang) profileKey = false := by
    cases h : ciEq (langKey lang) profileKey with
    | false => rfl
    | true =>
      have h2 : (langKey lang).map Char.toLower = profileKey.map Char.toLower := by simpa [ciEq] using h
      have h3 : ',' ∈ (langKey lang).map Char.toLower := List.mem_map.mpr ⟨',', hmem, by decide⟩
      rw [h2] at h3
      revert h3
      decide
  have hfind : table.find? (fun e => ciEq (langKey lang) e.name && e.rule != .none && e.rule != .profile) = none := by
    rw [List.find?_eq_none]
    intro e he hx
    simp only [Bool.and_eq_true] at hx
    have h1 := List.all_eq_true.mp no_comma e he
    have h2 : (langKey lang).map Char.toLower = e.name.map Char.toLower := by simpa [ciEq] using hx.1.1
    have h3 : ',' ∈ (langKey lang).map Char.toLower := List.mem_map.mpr ⟨',', hmem, by decide⟩
    rw [h2] at h3
    simp [h3] at h1
  have hpre : pricePrefix.isPrefixOf (langKey lang) = true := by
    rw [List.isPrefixOf_iff_prefix]
    exact ⟨',' :: lang, rfl⟩
  have hset : set env s now (langKey lang) t w = setPrice env s (langKey lang) t w := by
    unfold set
    rw [hfind]
    simp only [hauth, hpre, Bool.false_eq_true, if_false, if_true]
  have hdo : doSet env s now (langKey lang) t w = setPrice env s (langKey lang) t w := by
    unfold doSet
    rw [hset]
    simp [hprof]
  have hg : get env s (langKey lang) = .throws ∨ ∃ k v, get env s (langKey lang) = .kv k false v := by
    have hk : ∀ k v, mkKv k false v = .throws ∨ ∃ k' v', mkKv k false v = .kv k' false v' := by
      intro k v
      unfold mkKv
      split
      · split
        · exact Or.inl rfl
        · exact Or.inr ⟨_, _, rfl⟩
      · exact Or.inr ⟨_, _, rfl⟩
    rw [get_lang h0 hc hp hm]
    unfold reportPrice
    split <;> exact hk _ _
  unfold change
  rcases hg with hg | ⟨k, v, hg⟩
  · exact absurd hg ht
  · rw [hg]
    simp only [Bool.false_eq_true, and_false, if_false]
    exact hdo

/-- C131: after an accepted change of the text of the price in a language, that text is reported for the language (if it has at most 500 bytes), and what is reported for
the other languages is as before. -/
theorem C131_language {env : Env} {s : St} {u : Maps} {now : Int} {lang t : Text} (hu : s.user = some u) (h0 : lang ≠ []) (hc : ',' ∉ lang)
    (hp : env.sup .price = true) (hm : s.cfg.keys "CustomMultiLanguageMessages".toList = some (.bool true))
    (ha : (change env s now (langKey lang) t .ok).2 = .accepted) :
    ∃ j x, env.parse t = some j ∧ env.priceText j = some x ∧
      (bytes x.shown ≤ 500 → get env (change env s now (langKey lang) t .ok).1 (langKey lang) = .kv (langKey lang) false (some x.shown)) ∧
      (∀ other, other ≠ [] → ',' ∉ other → other ≠ lang →
        get env (change env s now (langKey lang) t .ok).1 (langKey other) = get env s (langKey other)) := by
  have hchange := change_lang (now := now) (t := t) (w := .ok) h0 hc hp hm (fun h => by
    unfold change at ha
    rw [h] at ha
    cases ha)
  have hpc : pieces ',' (langKey lang) = [pricePrefix, lang] := pieces_lang h0 hc
  rw [hchange] at ha ⊢
  unfold setPrice at ha ⊢
  rw [hpc] at ha ⊢
  have hgd : ([pricePrefix, lang] : List Text).getD 1 [] = lang := rfl
  have hlen : ¬ decide (([pricePrefix, lang] : List Text).length ≤ 1) = true := by simp
  rw [hgd] at ha ⊢
  rw [if_neg hlen] at ha ⊢
  dsimp only at ha ⊢
  split at ha
  · cases ha
  rename_i hl
  rw [if_neg hl]
  cases hj : env.parse t with
  | none => rw [hj] at ha; cases ha
  | some j =>
    rw [hj] at ha
    dsimp only at ha ⊢
    cases hx : env.priceText j with
    | none => rw [hx] at ha; cases ha
    | some x =>
      rw [if_neg (by simp)]
      dsimp only
      have hst : (store s (fun m => { m with price := some (putPrice (s.cfg.price.getD []) lang j) }) .ok).1.cfg =
          { s.cfg with price := some (putPrice (s.cfg.price.getD []) lang j) } := by
        simp only [store, hu]
      generalize (store s (fun m => { m with price := some (putPrice (s.cfg.price.getD []) lang j) }) .ok).1 = s' at hst ⊢
      have hm' : s'.cfg.keys "CustomMultiLanguageMessages".toList = some (.bool true) := by rw [hst]; exact hm
      have hfp : ∀ other, (s'.cfg.price.getD []).find? (fun p => p.1 == other) =
          if lang = other then some (lang, j) else (s.cfg.price.getD []).find? (fun p => p.1 == other) := by
        intro other
        rw [hst]
        exact find_put _ _ _ _
      refine ⟨j, x, rfl, hx, ?_, ?_⟩
      · intro hb
        rw [get_lang h0 hc hp hm']
        unfold reportPrice
        rw [hfp, if_pos rfl]
        simp only [hx, Option.map_some, Option.getD_some, mkKv]
        rw [if_neg (by omega)]
        rfl
      · intro other h1 h2 h3
        rw [get_lang h1 h2 hp hm', get_lang h1 h2 hp hm]
        unfold reportPrice
        rw [hfp, if_neg (fun h => h3 h.symm)]

/-- A station with texts in German and English. -/
def demoLang : St :=
  { demo with cfg := { demo.cfg with keys := upd (upd demo.cfg.keys "CustomMultiLanguageMessages".toList (.bool true)) "SupportedLanguages".toList (.text "en, de".toList) } }

example : (change demoEnv demoLang 0 (langKey "de".toList) "{}".toList .ok).2 = .accepted ∧ demoLang.user ≠ none ∧
    demoLang.cfg.keys "CustomMultiLanguageMessages".toList = some (.bool true) := by
  have h := change_lang (env := demoEnv) (s := demoLang) (now := 0) (lang := "de".toList) (t := "{}".toList) (w := .ok) (by decide) (by decide) rfl (by decide +kernel)
    (by rw [get_lang (by decide) (by decide) rfl (by decide +kernel)]; decide +kernel)
  rw [h]
  decide +kernel

/-- Such a station, with the texts of all languages. -/
example : ∃ env : Env, env.sup .price = true ∧ env.sup .custom = false ∧
    ({ keys := fun _ => some (.bool true), cust := fun _ => none, price := none } : Maps).keys "CustomMultiLanguageMessages".toList = some (.bool true) :=
  ⟨{ demoEnv with sup := fun p => p != .custom }, rfl, rfl, rfl⟩

end Verif.Conf16
