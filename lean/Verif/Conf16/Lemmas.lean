import Verif.Conf16.Spec
/-! Facts about the table of keys, and lemmas about `get`, `set` and `change`. -/
set_option linter.unusedSimpArgs false

namespace Verif.Conf16

/-! ## The table -/

theorem names_nodup : (table.map (fun e => lower e.name)).Nodup := by decide +kernel

/-- What the rule of a key stores fits its type in the schemas, if the text has only ASCII characters. -/
def fits (e : Key) : Bool :=
  match e.rule, e.ty with
  | .none, _ => true
  | .bool, .bool => true
  | .boolAny, .bool => true
  | .unlock, .bool => true
  | .nat lo hi, .int l h => decide (0 ≤ lo) && (match l with
      | some l => decide (l ≤ lo)
      | none => true) && (match hi, h with
      | _, none => true
      | some a, some b => decide (a ≤ b)
      | none, some _ => false)
  | .phases, .int l h => l == some 1 && h == some 3
  | .text _ _, .str _ _ => true
  | .rotation, .str lo hi => lo == 0 && hi == none
  | .measurands, .str lo hi => lo == 0 && hi == none
  | .purposes, .str lo hi => lo == 0 && hi == none
  | .evseIds, .str lo hi => lo == 7 && hi == some 1000
  | .json, .obj => true
  | .offset, .str _ _ => true
  | .future, .str _ _ => true
  | .uri, .str lo hi => lo == 1 && hi == none
  | .profile, .int l h => l == some 0 && h == some 3
  | _, _ => false

/-- Single facts about the keys. -/
def facts (e : Key) : Bool :=
  fits e && !ciEq e.name authKey && !pricePrefix.isPrefixOf e.name
    && (lower e.name).take 16 != lower pricePrefix
    && (ciEq e.name profileKey == (e.rule == .profile)) && (e.name == profileKey || e.rule != .profile)
    && (e.rule == .none || e.name != "CustomMultiLanguageMessages".toList)
    && (e.rule == .none || e.name != "SupportedLanguages".toList)
    && (e.rule == .none || e.name != "NumberOfConnectors".toList)

theorem table_facts : table.all facts = true := by decide +kernel

theorem facts_of {e : Key} (h : e ∈ table) : facts e = true := List.all_eq_true.mp table_facts e h

theorem ciEq_iff (a b : Text) : ciEq a b = true ↔ lower a = lower b := by simp [ciEq, lower]

theorem ciEq_refl (a : Text) : ciEq a a = true := by simp [ciEq]

theorem nodup_inj {α β : Type} {f : α → β} : ∀ {l : List α}, (l.map f).Nodup → ∀ {a b}, a ∈ l → b ∈ l → f a = f b → a = b := by
  intro l
  induction l with
  | nil => intro _ a b ha; cases ha
  | cons x r ih =>
    intro h a b ha hb e
    simp only [List.map_cons, List.nodup_cons, List.mem_map, not_exists, not_and] at h
    rcases List.mem_cons.mp ha with rfl | ha' <;> rcases List.mem_cons.mp hb with rfl | hb'
    · rfl
    · exact absurd e.symm (h.1 b hb')
    · exact absurd e (h.1 a ha')
    · exact ih h.2 ha' hb' e

/-- Two keys whose names differ only in case are the same. -/
theorem key_unique {e e' : Key} (h : e ∈ table) (h' : e' ∈ table) (hn : lower e.name = lower e'.name) : e = e' :=
  nodup_inj (f := fun e : Key => lower e.name) names_nodup h h' hn

theorem find_unique {p : Key → Bool} {e : Key} {k : Text} (h : e ∈ table) (hk : ciEq k e.name = true) (hp : p e = true) :
    table.find? (fun e => ciEq k e.name && p e) = some e := by
  cases hf : table.find? (fun e => ciEq k e.name && p e) with
  | none =>
    have := List.find?_eq_none.mp hf e h
    simp [hk, hp] at this
  | some x =>
    have hx := List.mem_of_find?_eq_some hf
    have hq := List.find?_some hf
    simp only [Bool.and_eq_true] at hq
    rw [key_unique hx h (((ciEq_iff _ _).mp hq.1).symm.trans ((ciEq_iff _ _).mp hk))]

theorem find_none {p : Key → Bool} {e : Key} {k : Text} (h : e ∈ table) (hk : ciEq k e.name = true) (hp : p e = false) :
    table.find? (fun e => ciEq k e.name && p e) = none := by
  apply List.find?_eq_none.mpr
  intro x hx hq
  simp only [Bool.and_eq_true] at hq
  rw [key_unique hx h (((ciEq_iff _ _).mp hq.1).symm.trans ((ciEq_iff _ _).mp hk)), hp] at hq
  exact absurd hq.2 (by simp)

theorem entry_known {env : Env} {e : Key} {k : Text} (h : Known env e) (hk : ciEq k e.name = true) : entry env k = some e := by
  unfold entry
  apply find_unique (p := fun e => !e.gated || env.sup e.sect) h.1 hk
  cases hg : e.gated with
  | false => simp
  | true => simp [h.2 hg]

theorem entry_some {env : Env} {e : Key} {k : Text} (h : entry env k = some e) : Known env e ∧ ciEq k e.name = true := by
  unfold entry at h
  have hm := List.mem_of_find?_eq_some h
  have hq := List.find?_some h
  simp only [Bool.and_eq_true, Bool.or_eq_true, Bool.not_eq_true'] at hq
  exact ⟨⟨hm, fun hg => by rcases hq.2 with h2 | h2 <;> simp_all⟩, hq.1⟩

theorem not_auth {e : Key} (h : e ∈ table) {k : Text} (hk : ciEq k e.name = true) : ciEq k authKey = false := by
  have hf := facts_of h
  simp only [facts, Bool.and_eq_true, Bool.not_eq_true'] at hf
  cases hc : ciEq k authKey with
  | false => rfl
  | true =>
    have : ciEq e.name authKey = true := (ciEq_iff _ _).mpr (((ciEq_iff _ _).mp hk).symm.trans ((ciEq_iff _ _).mp hc))
    simp_all

theorem not_price {e : Key} (h : e ∈ table) {k : Text} (hk : ciEq k e.name = true) : pricePrefix.isPrefixOf k = false := by
  have hf := facts_of h
  simp only [facts, Bool.and_eq_true, Bool.not_eq_true', bne_iff_ne] at hf
  have h4 := hf.1.1.1.1.1.2
  cases hp : pricePrefix.isPrefixOf k with
  | false => rfl
  | true =>
    obtain ⟨r, hr⟩ := List.isPrefixOf_iff_prefix.mp hp
    refine absurd ?_ h4
    rw [← (ciEq_iff _ _).mp hk, ← hr]
    show List.take 16 (List.map _ (pricePrefix ++ r)) = _
    rw [List.map_append]
    exact List.take_left' (by decide +kernel)

theorem profile_iff {e : Key} (h : e ∈ table) : e.rule = .profile ↔ e.name = profileKey := by
  have hf := facts_of h
  simp only [facts, Bool.and_eq_true, Bool.or_eq_true, beq_iff_eq, bne_iff_ne] at hf
  have h5 := hf.1.1.1.1.2
  have h6 := hf.1.1.1.2
  constructor
  · intro hr
    rcases h6 with h6 | h6
    · exact h6
    · exact absurd hr h6
  · intro hn
    rw [hn, ciEq_refl] at h5
    simpa using h5.symm

theorem profile_ci {e : Key} (h : e ∈ table) {k : Text} (hk : ciEq k e.name = true) : ciEq k profileKey = decide (e.rule = .profile) := by
  have hf := facts_of h
  simp only [facts, Bool.and_eq_true, Bool.or_eq_true, beq_iff_eq, bne_iff_ne] at hf
  have h5 := hf.1.1.1.1.2
  have : ciEq k profileKey = ciEq e.name profileKey := by
    have := (ciEq_iff _ _).mp hk
    unfold lower at this
    simp only [ciEq, this]
  rw [this, h5]
  by_cases hr : e.rule = .profile <;> simp [hr]

/-! ## Storing -/

theorem store_cfg (s : St) (f : Maps → Maps) (w : Write) : (store s f w).1.cfg = f s.cfg := by
  simp only [store]
  cases s.user <;> cases w <;> rfl

theorem store_base (s : St) (f : Maps → Maps) (w : Write) : (store s f w).1.base = s.base := by
  simp only [store]
  cases s.user <;> cases w <;> rfl

theorem store_cb (s : St) (f : Maps → Maps) (w : Write) : (store s f w).1.cb = s.cb := by
  simp only [store]
  cases s.user <;> cases w <;> rfl

theorem store_ok {s : St} {u : Maps} (f : Maps → Maps) (h : s.user = some u) : store s f .ok = ({ s with cfg := f s.cfg, user := some (f u) }, false) := by
  simp only [store, h]

theorem store_readable {s : St} {u : Maps} (f : Maps → Maps) (w : Write) (h : s.user = some u) : (store s f w).2 = false := by
  simp only [store, h]
  cases w <;> rfl

theorem storeKey_refused {s : St} {u : Maps} {n : Text} {v : Val} {w : Write} {a : Status} (h : s.user = some u) (ha : ¬ Refused a) :
    ¬ Refused (storeKey s n v w a).2 := by
  simp only [storeKey, store_readable _ w h]
  exact ha

theorem check_no {env : Env} {s : St} {now : Int} {r : Rule} {t : Text} {a : Status} (h : check env s now r t = .no a) (hr : r ≠ .profile) : Refused a := by
  unfold check at h
  unfold Refused
  cases r <;> simp only [orReject] at h <;> (try (repeat' split at h)) <;> simp_all
  all_goals (try subst h; simp)

theorem setKey_refused {env : Env} {s : St} {u : Maps} {now : Int} {e : Key} {t : Text} {w : Write} (h : s.user = some u) (hr : e.rule ≠ .profile)
    (ha : Refused (setKey env s now e t w).2) : (setKey env s now e t w).1 = s := by
  unfold setKey at ha ⊢
  by_cases hb : blocked env s e = true
  · simp [hb]
  · simp only [hb] at ha ⊢
    simp only [Bool.false_eq_true, if_false] at ha ⊢
    cases hc : check env s now e.rule t with
    | no a => simp [hc]
    | val v =>
      rw [hc] at ha
      refine absurd ha (storeKey_refused h ?_)
      unfold Refused
      by_cases hu : e.rule = .uri <;> simp [hu]

theorem set_find {env : Env} {s : St} {now : Int} {k t : Text} {w : Write} {e : Key} (h : e ∈ table) (hk : ciEq k e.name = true) (h1 : e.rule ≠ .none)
    (h2 : e.rule ≠ .profile) : set env s now k t w = setKey env s now e t w := by
  unfold set
  have : table.find? (fun e => ciEq k e.name && e.rule != .none && e.rule != .profile) = some e := by
    have := find_unique (p := fun e => e.rule != .none && e.rule != .profile) h hk (by simp [h1, h2])
    simpa [Bool.and_assoc] using this
  rw [this]

theorem set_other {env : Env} {s : St} {now : Int} {k t : Text} {w : Write} {e : Key} (h : e ∈ table) (hk : ciEq k e.name = true)
    (h1 : e.rule = .none ∨ e.rule = .profile) (hc : s.cfg.cust k = none) :
    set env s now k t w = (s, if e.rule = .profile then .accepted else .rejected) := by
  unfold set
  have : table.find? (fun e => ciEq k e.name && e.rule != .none && e.rule != .profile) = none := by
    have := find_none (p := fun e => e.rule != .none && e.rule != .profile) h hk (by rcases h1 with h1 | h1 <;> simp [h1])
    simpa [Bool.and_assoc] using this
  rw [this]
  simp only [not_auth h hk, not_price h hk, hc, profile_ci h hk]
  by_cases hr : e.rule = .profile <;> simp [hr]

theorem fresh_none {m : Maps} (h : Fresh m) {e : Key} (he : e ∈ table) {k : Text} (hk : ciEq k e.name = true) : m.cust k = none := by
  cases hc : m.cust k with
  | none => rfl
  | some v =>
    have := (h k (by simp [hc])).1 e he
    simp [hk] at this

theorem setAuthKey_refused {s : St} {u : Maps} {t : Text} {w : Write} (h : s.user = some u) (ha : Refused (setAuthKey s t w).2) : (setAuthKey s t w).1 = s := by
  unfold setAuthKey at ha ⊢
  by_cases hb : bytes t ≥ 8
  · rw [if_pos hb] at ha
    exact absurd ha (storeKey_refused h (by simp [Refused]))
  · rw [if_neg hb]

theorem setPrice_refused {env : Env} {s : St} {u : Maps} {k t : Text} {w : Write} (h : s.user = some u) (ha : Refused (setPrice env s k t w).2) :
    (setPrice env s k t w).1 = s := by
  unfold setPrice at ha ⊢
  by_cases h1 : decide ((pieces ',' k).length ≤ 1) = true
  · simp only [h1, if_true]
  · simp only [h1, Bool.false_eq_true, if_false] at ha ⊢
    by_cases h2 : (!(languages s).any (fun l => trim l == trim ((pieces ',' k).getD 1 []))) = true
    · simp only [h2, if_true]
    · simp only [h2, Bool.false_eq_true, if_false] at ha ⊢
      cases hp : env.parse t with
      | none => rfl
      | some j =>
        simp only [hp] at ha ⊢
        by_cases h3 : (env.priceText j).isNone = true
        · simp only [h3, if_true]
        · simp only [h3, Bool.false_eq_true, if_false] at ha
          simp [store_readable _ w h, Refused] at ha

theorem setCustom_refused {env : Env} {s : St} {u : Maps} {k t : Text} {w : Write} (h : s.user = some u) (ha : Refused (setCustom env s k t w).2) :
    (setCustom env s k t w).1 = s := by
  unfold setCustom at ha ⊢
  cases hr : reportCustom env s k with
  | unknown => rfl
  | throws => rfl
  | kv key ro v =>
    simp only [hr] at ha ⊢
    cases ro with
    | true => rfl
    | false =>
      simp only [Bool.false_eq_true, if_false] at ha ⊢
      cases hc : env.customConv k t with
      | none => rfl
      | some x =>
        simp only [hc] at ha ⊢
        by_cases h3 : env.customOk (upd s.cfg.cust k x) = true
        · simp only [h3, if_true] at ha
          simp [store_readable _ w h, Refused] at ha
        · simp only [h3, Bool.false_eq_true, if_false]

theorem set_refused {env : Env} {s : St} {u : Maps} {now : Int} {k t : Text} {w : Write} (h : s.user = some u) (ha : Refused (set env s now k t w).2) :
    (set env s now k t w).1 = s := by
  unfold set at ha ⊢
  cases hf : table.find? (fun e => ciEq k e.name && e.rule != .none && e.rule != .profile) with
  | some e =>
    rw [hf] at ha
    have hq := List.find?_some hf
    simp only [Bool.and_eq_true, bne_iff_ne] at hq
    exact setKey_refused h hq.2 ha
  | none =>
    rw [hf] at ha
    dsimp only at ha ⊢
    split
    · rename_i hx
      rw [if_pos hx] at ha
      exact setAuthKey_refused h ha
    · rename_i hx
      rw [if_neg hx] at ha
      split
      · rename_i hy
        rw [if_pos hy] at ha
        exact setPrice_refused h ha
      · rename_i hy
        rw [if_neg hy] at ha
        split
        · rename_i hz
          rw [if_pos hz] at ha
          exact setCustom_refused h ha
        · split <;> rfl

theorem askProfile_refused {env : Env} {s : St} {t : Text} (ha : Refused (askProfile env s t).2) : (askProfile env s t).1 = s := by
  unfold askProfile at ha ⊢
  cases hs : stoi t with
  | invalid => rfl
  | range => rfl
  | val p =>
    simp only [hs] at ha ⊢
    (repeat' split at ha) <;> (repeat' split) <;> first | rfl | (simp [Refused] at ha; done) | simp_all

/-- `SecurityProfile` changes nothing in `set`. -/
theorem set_profile {env : Env} {s : St} {now : Int} {k t : Text} {w : Write} (hk : ciEq k profileKey = true) (hc : s.cfg.cust k = none)
    (hm : ∃ e ∈ table, e.name = profileKey) : set env s now k t w = (s, .accepted) := by
  obtain ⟨e, he, hn⟩ := hm
  have hr := (profile_iff he).mpr hn
  rw [set_other he (hn ▸ hk) (.inr hr) hc, hr]
  rfl

theorem profile_mem : ∃ e ∈ table, e.name = profileKey := by
  have : table.any (fun e => e.name == profileKey) = true := by decide +kernel
  simpa using this

theorem doSet_refused {env : Env} {s : St} {u : Maps} {now : Int} {k t : Text} {w : Write} (h : s.user = some u) (hf : Fresh s.cfg)
    (ha : Refused (doSet env s now k t w).2) : (doSet env s now k t w).1 = s := by
  unfold doSet at ha ⊢
  dsimp only at ha ⊢
  by_cases hc : (set env s now k t w).2 = .accepted ∧ ciEq k profileKey = true
  · rw [if_pos hc] at ha ⊢
    obtain ⟨e, he, hn⟩ := profile_mem
    rw [set_profile hc.2 (fresh_none hf he (hn ▸ hc.2)) ⟨e, he, hn⟩] at ha ⊢
    exact askProfile_refused ha
  · rw [if_neg hc] at ha ⊢
    exact set_refused h ha

end Verif.Conf16
