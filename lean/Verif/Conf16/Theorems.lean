import Verif.Conf16.Demo
/-! C130–C133: what ChangeConfiguration answers and does. -/
set_option linter.unusedSimpArgs false

namespace Verif.Conf16

theorem sameName_iff {a b : Text} : SameName a b ↔ ciEq a b = true := by simp [SameName, ciEq]

/-! ## C130 -/

/-- C130, partial: a ChangeConfiguration for a key that the station does not have is answered NotSupported, one for a key that GetConfiguration reports as read only is
answered Rejected, and no request that is refused changes anything: neither the configuration nor the file nor a pending switch of the security profile.
Missing: the file with the changes must be readable (see `C130_unreadable_violated`) and no custom key has the name of a standard key. -/
theorem C130_partial {env : Env} {s : St} {u : Maps} {now : Int} {k t : Text} {w : Write} (hu : s.user = some u) (hf : Fresh s.cfg) :
    ((∀ e, Known env e → ¬ SameName k e.name) → s.cfg.cust k = none → ¬ pricePrefix <+: k → ¬ SameName k authKey →
      (change env s now k t w).2 = .notSupported)
    ∧ (∀ n v, get env s k = .kv n true v → k ≠ authKey → (change env s now k t w).2 = .rejected)
    ∧ (Refused (change env s now k t w).2 → (change env s now k t w).1 = s) := by
  refine ⟨fun hn hc hp ha => ?_, fun n v hg hk => ?_, fun ha => ?_⟩
  · have he : entry env k = none := by
      cases h : entry env k with
      | none => rfl
      | some e => exact absurd (sameName_iff.mpr (entry_some h).2) (hn e (entry_some h).1)
    have hp' : pricePrefix.isPrefixOf k = false := by
      cases h : pricePrefix.isPrefixOf k with
      | false => rfl
      | true => exact absurd (List.isPrefixOf_iff_prefix.mp h) hp
    have hg : get env s k = .unknown := by
      unfold get
      rw [he]
      simp only [hp', Bool.and_false, Bool.false_and, Bool.false_eq_true, if_false, reportCustom, hc]
      split <;> rfl
    unfold change
    rw [hg]
    simp only [show ciEq k authKey = false from by cases h : ciEq k authKey with
      | false => rfl
      | true => exact absurd (sameName_iff.mpr h) ha, Bool.false_eq_true, if_false]
  · unfold change
    rw [hg]
    simp only [ne_eq, hk, not_false_eq_true, and_self, if_true]
  · unfold change at ha ⊢
    cases hg : get env s k with
    | throws => rfl
    | kv n ro v =>
      rw [hg] at ha
      dsimp only at ha ⊢
      split
      · rfl
      · rename_i hx
        rw [if_neg hx] at ha
        exact doSet_refused hu hf ha
    | unknown =>
      rw [hg] at ha
      dsimp only at ha ⊢
      split
      · rename_i hx
        rw [if_pos hx] at ha
        split
        · rfl
        · rename_i hy
          rw [if_neg hy] at ha
          exact doSet_refused hu hf ha
      · rfl

/-- An unknown key, a read only key, and a value that is refused. -/
example : (change demoEnv demo 0 "ChargePointVendor".toList "X".toList .ok).2 = .rejected ∧
    Refused (change demoEnv demo 0 "heartbeatinterval".toList "-5".toList .ok).2 := by
  constructor
  · refine (C130_partial (u := noChanges) rfl demo_fresh).2.1 "ChargePointVendor".toList (some "V".toList) ?_ (by decide)
    rw [get_known (demo_known vendorRow_mem) (by decide)]
    decide
  · rw [change_known (demo_known heartbeatRow_mem) (by decide), report_some (v := .int 60) (by decide) (by decide)]
    simp only [show roOf demoEnv heartbeatRow.ro = false from rfl, Bool.false_eq_true, if_false]
    rw [doSet_key heartbeatRow_mem (by decide) (by decide) (by decide)]
    unfold setKey Refused
    decide

/-- C130 is violated: when the file could not be written completely (disk full) it is replaced by an incomplete one.  The next change is answered with an error, as the
file cannot be read, but it takes effect: HeartbeatInterval is 5 afterwards. -/
theorem C130_unreadable_violated : ∃ env base user, ∃ s0 s1, boot env base user = some s0 ∧
    run env s0 [.change 0 "HeartbeatInterval".toList "7".toList .full] = some s1 ∧
    (change env s1 0 "HeartbeatInterval".toList "5".toList .ok).2 = .error ∧
    s1.cfg.keys "HeartbeatInterval".toList = some (.int 7) ∧
    (change env s1 0 "HeartbeatInterval".toList "5".toList .ok).1.cfg.keys "HeartbeatInterval".toList = some (.int 5) := by
  have h1 : change demoEnv demo 0 "HeartbeatInterval".toList "7".toList .full = storeKey demo "HeartbeatInterval".toList (.int 7) .full .accepted :=
    change_val (e := heartbeatRow) (v := .int 60) (demo_known heartbeatRow_mem) (by decide) (by decide) (by decide) rfl (by decide) (by decide) rfl (by decide)
  refine ⟨demoEnv, demoBase, noChanges, demo, (storeKey demo "HeartbeatInterval".toList (.int 7) .full .accepted).1, demo_boot, ?_, ?_⟩
  · simp only [run, step, h1]
  · have h2 : change demoEnv (storeKey demo "HeartbeatInterval".toList (.int 7) .full .accepted).1 0 "HeartbeatInterval".toList "5".toList .ok =
        storeKey (storeKey demo "HeartbeatInterval".toList (.int 7) .full .accepted).1 "HeartbeatInterval".toList (.int 5) .ok .accepted :=
      change_val (e := heartbeatRow) (v := .int 7) (demo_known heartbeatRow_mem) (by decide) (by decide) (by decide) rfl (by decide) (by decide) rfl (by decide)
    rw [h2]
    decide

/-! ## C131 -/

theorem decimalNumber_eq (l : Text) : DM.decimalNumber l = Nat.ofDigitChars 10 l 0 := by
  induction l with
  | nil => simp [DM.decimalNumber]
  | cons c r ih =>
    rw [Nat.ofDigitChars_cons, Nat.ofDigitChars_eq_ofDigitChars_zero, DM.decimalNumber, ih, Nat.mul_zero, Nat.zero_add, Nat.mul_comm]
    rfl

theorem repr_digits (n : Nat) : n.repr.toList ≠ [] ∧ DM.Digits n.repr.toList ∧ DM.decimalNumber n.repr.toList = n := by
  have h : n.repr.toList = Nat.toDigits 10 n := by simp [Nat.repr]
  rw [h]
  refine ⟨Nat.toDigits_ne_nil, fun c hc => ?_, by rw [decimalNumber_eq, Nat.ofDigitChars_ten_toDigits]⟩
  have := Nat.isDigit_of_mem_toDigits (b := 10) (by decide) (by decide) hc
  simp only [Char.isDigit, Bool.and_eq_true, decide_eq_true_eq] at this
  exact this

theorem tells_show (x : Val) : Tells x x.show := by
  cases x with
  | bool b => cases b <;> rfl
  | int n =>
    cases n with
    | ofNat m =>
      obtain ⟨h1, h2, h3⟩ := repr_digits m
      exact ⟨m.repr.toList, h1, h2, Or.inl ⟨rfl, by rw [h3]; rfl⟩⟩
    | negSucc m =>
      obtain ⟨h1, h2, h3⟩ := repr_digits (m + 1)
      refine ⟨(m + 1).repr.toList, h1, h2, Or.inr (Or.inr ⟨?_, by rw [h3]; rfl⟩)⟩
      show (toString (Int.negSucc m)).toList = _
      have : toString (Int.negSucc m) = "-" ++ (m + 1).repr := rfl
      rw [this, String.toList_append]; rfl
  | text t => rfl
  | list l => rfl
  | json j => rfl

/-- C131, partial: when a change of a standard key other than SecurityProfile is accepted and the file can be written, then the value is the one the text says, in the
configuration and in the file; GetConfiguration reports it for each spelling of the key (texts of at most 500 bytes; see `C135_long_violated` for JSON); and all other
keys, standard or not, are reported as before. -/
theorem C131_partial {env : Env} {s : St} {u : Maps} {now : Int} {e : Key} {k t : Text} (hu : s.user = some u) (hf : Fresh s.cfg) (he : Known env e)
    (hk : SameName k e.name) (hp : e.name ≠ profileKey) (ha : ¬ Refused (change env s now k t .ok).2) :
    ∃ x, Reads env e.ty t x
      ∧ (change env s now k t .ok).1.cfg.keys e.name = some x
      ∧ (∃ u', (change env s now k t .ok).1.user = some u' ∧ u'.keys e.name = some x)
      ∧ (e.ty ≠ .obj → bytes t ≤ 500 → ∀ k', SameName k' e.name → ∃ r, Tells x r ∧ get env (change env s now k t .ok).1 k' = .kv e.name false (some r))
      ∧ (∀ k', ¬ SameName k' e.name → get env (change env s now k t .ok).1 k' = get env s k') := by
  have hk' := sameName_iff.mp hk
  have hpr : e.rule ≠ .profile := fun h => hp ((profile_iff he.1).mp h)
  obtain ⟨hro, hn, x, a, hc, hch⟩ := accepted_key he hk' hf hpr ha
  rw [hch]
  have hst : (storeKey s e.name x .ok a).1 =
      { s with
        cfg := { s.cfg with keys := upd s.cfg.keys e.name x }
        user := some { u with keys := upd u.keys e.name x } } := by
    simp only [storeKey, store_ok _ hu]
  have hself : ∀ f : Text → Option Val, upd f e.name x e.name = some x := fun f => by simp [upd]
  rw [hst]
  refine ⟨x, check_reads he.1 hc, hself _, ⟨_, rfl, hself _⟩, fun hj hb k' hk2 => ?_, fun k' hk2 => ?_⟩
  · refine ⟨x.show, tells_show x, ?_⟩
    rw [get_known he (sameName_iff.mp hk2), report_some (hself _) (check_bytes hc ?_ hb), hro]
    intro hr
    have hfit := facts_of he.1
    simp only [facts, Bool.and_eq_true] at hfit
    have hfit := hfit.1.1.1.1.1.1.1.1
    unfold fits at hfit
    rw [hr] at hfit
    cases ht : e.ty <;> rw [ht] at hfit hj <;> simp_all
  · have hm : "CustomMultiLanguageMessages".toList ≠ e.name := by
      have hfit := facts_of he.1
      simp only [facts, Bool.and_eq_true, Bool.or_eq_true, beq_iff_eq, bne_iff_ne] at hfit
      rcases hfit.1.1.2 with h | h
      · exact absurd h hn
      · exact fun h' => h h'.symm
    unfold get
    cases hen : entry env k' with
    | some e' =>
      have hs := entry_some hen
      have hne : e'.name ≠ e.name := fun h => hk2 (h ▸ sameName_iff.mpr hs.2)
      simp only [report, upd, hne, if_false]
    | none =>
      have hml : multiLang { s with
          cfg := { s.cfg with keys := upd s.cfg.keys e.name x }
          user := some { u with keys := upd u.keys e.name x } } = multiLang s := by
        unfold multiLang
        dsimp only [upd]
        rw [if_neg hm]
      dsimp only
      rw [hml]
      rfl

example : ¬ Refused (change demoEnv demo 0 "heartbeatinterval".toList "300".toList .ok).2 ∧ Reads demoEnv heartbeatRow.ty "300".toList (.int 300) := by
  have h : change demoEnv demo 0 "heartbeatinterval".toList "300".toList .ok = storeKey demo "HeartbeatInterval".toList (.int 300) .ok .accepted :=
    change_val (e := heartbeatRow) (v := .int 60) (demo_known heartbeatRow_mem) (by decide) (by decide) (by decide) rfl (by decide) (by decide) rfl (by decide)
  constructor
  · rw [h]; unfold Refused; decide +kernel
  · exact check_reads (s := demo) (now := 0) heartbeatRow_mem (by decide)

/-! ## C132 -/

/-- C132, partial: for a standard key the spelling of its name, as to upper and lower case, makes no difference: neither for the answer nor for the effect of a
ChangeConfiguration, nor for what GetConfiguration reports. -/
theorem C132_partial {env : Env} {s : St} {now : Int} {e : Key} {k k' t : Text} {w : Write} (hf : Fresh s.cfg) (he : Known env e) (hk : SameName k e.name)
    (hk' : SameName k' e.name) : change env s now k t w = change env s now k' t w ∧ get env s k = get env s k' := by
  have h1 := sameName_iff.mp hk
  have h2 := sameName_iff.mp hk'
  refine ⟨?_, by rw [get_known he h1, get_known he h2]⟩
  have hd : doSet env s now k t w = doSet env s now k' t w := by
    by_cases hn : e.rule = .none
    · rw [doSet_none he.1 h1 hn (fresh_none hf he.1 h1), doSet_none he.1 h2 hn (fresh_none hf he.1 h2)]
    · by_cases hp : e.rule = .profile
      · rw [doSet_profile he.1 h1 hp (fresh_none hf he.1 h1), doSet_profile he.1 h2 hp (fresh_none hf he.1 h2)]
      · rw [doSet_key he.1 h1 hn hp, doSet_key he.1 h2 hn hp]
  rw [change_known he h1, change_known he h2, hd]

example : Known demoEnv heartbeatRow ∧ SameName "HEARTBEATinterval".toList heartbeatRow.name ∧ SameName "heartbeatInterval".toList heartbeatRow.name :=
  ⟨demo_known heartbeatRow_mem, by unfold SameName; decide, by unfold SameName; decide⟩

/-- C132 is violated: AuthorizationKey can be changed under its name only; in any other spelling each request is answered with an error, whatever the value. -/
theorem C132_auth_violated (env : Env) (s : St) (now : Int) (k t : Text) (w : Write) (hf : Fresh s.cfg) (hp : ¬ pricePrefix <+: k) (hk : SameName k authKey)
    (hne : k ≠ authKey) (ht : 8 ≤ bytes t) (u : Maps) (hu : s.user = some u) :
    (change env s now k t w).2 = .error ∧ (change env s now authKey t w).2 = .accepted := by
  have hc : s.cfg.cust k = none := by
    cases h : s.cfg.cust k with
    | none => rfl
    | some v =>
      have := (hf k (by simp [h])).2
      rw [sameName_iff.mp hk] at this
      cases this
  constructor
  · have hp' : pricePrefix.isPrefixOf k = false := by
      cases h : pricePrefix.isPrefixOf k with
      | false => rfl
      | true => exact absurd (List.isPrefixOf_iff_prefix.mp h) hp
    have hg : get env s k = .unknown := by
      unfold get
      rw [entry_auth (sameName_iff.mp hk)]
      simp only [hp', Bool.and_false, Bool.false_and, Bool.false_eq_true, if_false, reportCustom, hc]
      split <;> rfl
    unfold change
    rw [hg]
    simp only [sameName_iff.mp hk, if_true, ne_eq, hne, not_false_eq_true]
  · rw [change_auth hf]
    unfold setAuthKey
    rw [if_pos ht]
    simp only [storeKey, store_readable _ w hu]
    rfl

example : SameName "authorizationkey".toList authKey ∧ "authorizationkey".toList ≠ authKey ∧ ¬ pricePrefix <+: "authorizationkey".toList ∧ 8 ≤ bytes "12345678".toList := by
  refine ⟨by unfold SameName; decide, by decide, ?_, by decide⟩
  intro h
  have := List.isPrefixOf_iff_prefix.mpr h
  revert this
  decide

/-- C132 is violated: the application is not told about a change of a key it registered for, if the request spells the name differently. -/
theorem C132_told_violated : told ["HeartbeatInterval".toList] false "HeartbeatInterval".toList = .own ∧
    told ["HeartbeatInterval".toList] false "heartbeatinterval".toList = .nobody ∧
    (change demoEnv demo 0 "heartbeatinterval".toList "300".toList .ok).2 = .accepted := by
  have h : change demoEnv demo 0 "heartbeatinterval".toList "300".toList .ok = storeKey demo "HeartbeatInterval".toList (.int 300) .ok .accepted :=
    change_val (e := heartbeatRow) (v := .int 60) (demo_known heartbeatRow_mem) (by decide) (by decide) (by decide) rfl (by decide) (by decide) rfl (by decide)
  rw [h]
  decide

/-! ## C133 -/

/-- The limits that the code checks are within those of the schema. -/
def tight (e : Key) : Bool :=
  match e.rule, e.ty with
  | .text lo hi, .str l h => decide (l ≤ lo) && (match hi, h with
      | _, none => true
      | some a, some b => decide (a ≤ b)
      | none, some _ => false)
  | _, _ => true

/-- A row outside the two lists has one of the strict checks. -/
def strict (e : Key) : Bool :=
  anyTextKeys.any (· == e.name) || looseKeys.any (· == e.name) || (e.ro == .yes) ||
    (tight e && (match e.rule with
      | .boolAny => false
      | .phases => false
      | .evseIds => false
      | .uri => false
      | .offset => false
      | .future => false
      | .profile => false
      | _ => true))

theorem table_strict : table.all strict = true := by decide +kernel

theorem ascii_bytes {t : Text} (h : Ascii t) : bytes t = t.length := by
  unfold bytes
  induction t with
  | nil => rfl
  | cons c r ih =>
    have hc : c.utf8Size = 1 := by
      have := h c (by simp)
      unfold Char.utf8Size
      have h2 : c.val.toNat < 128 := this
      rw [if_pos]
      exact UInt32.le_iff_toNat_le.mpr (by simp; omega)
    simp only [List.map_cons, List.sum_cons, List.length_cons, hc, ih (fun x hx => h x (by simp [hx]))]
    omega

/-- C133, partial: a value that is accepted for a standard key is legal for this key: true or false for a boolean key, an integer within the limits of the schema for an
integer key, a text whose length is within these limits for a text key.
Missing: the keys of `anyTextKeys` and of `looseKeys`, and texts with characters outside ASCII. -/
theorem C133_partial {env : Env} {s : St} {now : Int} {e : Key} {k t : Text} {w : Write} (hf : Fresh s.cfg) (he : Known env e) (hk : SameName k e.name)
    (h1 : e.name ∉ anyTextKeys) (h2 : e.name ∉ looseKeys) (hasc : Ascii t) (ha : ¬ Refused (change env s now k t w).2) : Legal e.ty t := by
  have hpr : e.rule ≠ .profile := by
    intro h
    have := (profile_iff he.1).mp h
    exact h2 (by rw [this]; decide)
  obtain ⟨hro, hn, x, a, hc, hch⟩ := accepted_key he (sameName_iff.mp hk) hf hpr ha
  have hst := List.all_eq_true.mp table_strict e he.1
  have hl1 : anyTextKeys.any (· == e.name) = false := by
    cases h : anyTextKeys.any (· == e.name) with
    | false => rfl
    | true => simp only [List.any_eq_true, beq_iff_eq, exists_eq_right] at h; exact absurd h h1
  have hl2 : looseKeys.any (· == e.name) = false := by
    cases h : looseKeys.any (· == e.name) with
    | false => rfl
    | true => simp only [List.any_eq_true, beq_iff_eq, exists_eq_right] at h; exact absurd h h2
  have hl3 : (e.ro == .yes) = false := by
    cases h : e.ro == Ro.yes with
    | false => rfl
    | true => rw [beq_iff_eq] at h; rw [h] at hro; cases hro
  unfold strict at hst
  rw [hl1, hl2, hl3] at hst
  simp only [Bool.false_or, Bool.and_eq_true] at hst
  have hfit := facts_of he.1
  simp only [facts, Bool.and_eq_true] at hfit
  have hfit := hfit.1.1.1.1.1.1.1.1
  have hbool : isBool t = true → Legal .bool t := by
    intro h
    unfold isBool lower at h
    simp only [Bool.or_eq_true, beq_iff_eq] at h
    unfold Legal SameName
    have e1 : List.map Char.toLower "true".toList = "true".toList := by decide
    have e2 : List.map Char.toLower "false".toList = "false".toList := by decide
    rw [e1, e2]
    exact h
  unfold fits at hfit
  unfold tight at hst
  cases hr : e.rule <;> rw [hr] at hst hfit hc hn <;> (try exact absurd rfl hn) <;> (try (exact absurd hst.2 Bool.false_ne_true)) <;>
    cases ht : e.ty <;> rw [ht] at hst hfit <;> simp only [Bool.false_eq_true] at hfit <;> simp only [check, orReject] at hc
  case bool.bool => exact hbool (ite_val hc).1
  case unlock.bool =>
    have := (ite_val hc).1
    simp only [Bool.and_eq_true] at this
    exact hbool this.1
  case nat.int lo hi l h =>
    cases hp : positive t with
    | none => rw [hp] at hc; cases hc
    | some n =>
      rw [hp] at hc
      have hpos := positive_some hp
      have hr2 := (ite_val hc).1
      refine ⟨n, hpos.1, fun b hb => ?_, fun b hb => ?_⟩
      · subst hb
        simp only [Bool.and_eq_true, decide_eq_true_eq] at hfit hr2
        omega
      · subst hb
        cases hi with
        | none => simp at hfit
        | some a =>
          simp only [Bool.and_eq_true, decide_eq_true_eq] at hfit hr2
          omega
  case text.str lo hi l h =>
    have hr2 := (ite_val hc).1
    rw [ascii_bytes hasc] at hr2
    refine ⟨?_, fun b hb => ?_⟩
    · simp only [Bool.and_eq_true, decide_eq_true_eq] at hst hr2
      omega
    · subst hb
      cases hi with
      | none => simp at hst
      | some a =>
        simp only [Bool.and_eq_true, decide_eq_true_eq] at hst hr2
        omega
  case json.obj => trivial
  all_goals
    simp only [Bool.and_eq_true, beq_iff_eq] at hfit
    refine ⟨by omega, fun b hb => ?_⟩
    rw [hfit.2] at hb
    cases hb

example : heartbeatRow.name ∉ anyTextKeys ∧ heartbeatRow.name ∉ looseKeys ∧ Ascii "300".toList := by
  refine ⟨by decide, by decide, ?_⟩
  unfold Ascii
  decide

/-- A row of `anyTextKeys`. -/
theorem anyText_rows : table.all (fun e => !anyTextKeys.any (· == e.name) || (e.ro == .no && e.rule == .boolAny && e.ty == .bool && (e.guard == .none || e.guard == .absent))) = true := by
  decide +kernel

/-- C133 is violated, for all keys of `anyTextKeys`: whatever the text, it is accepted when the key has a value; if it is not "true", false is stored. -/
theorem C133_bool_violated {env : Env} {s : St} {u : Maps} {now : Int} {e : Key} {b : Bool} (t : Text) (hu : s.user = some u) (he : Known env e) (hn : e.name ∈ anyTextKeys)
    (hv : s.cfg.keys e.name = some (.bool b)) :
    (change env s now e.name t .ok).2 = .accepted ∧ (¬ SameName t "true".toList → (change env s now e.name t .ok).1.cfg.keys e.name = some (.bool false)) := by
  have hrow := List.all_eq_true.mp anyText_rows e he.1
  have hany : anyTextKeys.any (· == e.name) = true := by simpa using hn
  rw [hany] at hrow
  simp only [Bool.not_true, Bool.false_or, Bool.and_eq_true, beq_iff_eq] at hrow
  obtain ⟨⟨⟨hro, hr⟩, hty⟩, hg⟩ := hrow
  have hbl : blocked env s e = false := by
    unfold blocked
    simp only [Bool.or_eq_true, beq_iff_eq] at hg
    rcases hg with hg | hg <;> rw [hg]
    rw [hv]
    rfl
  have hch : change env s now e.name t .ok = storeKey s e.name (.bool (toBool t)) .ok (if e.rule = .uri then .rebootRequired else .accepted) :=
    change_val he (ciEq_refl _) hv (by cases b <;> decide) (by rw [hro]; rfl) (by rw [hr]; decide) (by rw [hr]; decide) hbl (by rw [hr]; rfl)
  rw [hch, hr]
  simp only [storeKey, store_ok _ hu]
  refine ⟨rfl, fun ht => ?_⟩
  have : toBool t = false := by
    unfold toBool lower
    unfold SameName at ht
    have e1 : List.map Char.toLower "true".toList = "true".toList := by decide
    rw [e1] at ht
    exact beq_eq_false_iff_ne.mpr ht
  simp [upd, this]

example : remoteRow.name ∈ anyTextKeys ∧ demo.cfg.keys remoteRow.name = some (.bool true) ∧ ¬ SameName "yes".toList "true".toList := by
  refine ⟨by decide, by decide, ?_⟩
  unfold SameName
  decide

/-- C133 is violated: "2x" is accepted as a number of phases, any character as the separator in a phase rotation, and an empty text for ConnectorEvseIds. -/
theorem C133_loose_violated :
    (change demoEnv demo 0 "CompositeScheduleDefaultNumberPhases".toList "2x".toList .ok).2 = .accepted ∧ (¬ ∃ n, DM.IsIntegerText "2x".toList n) ∧
    (change demoEnv demo 0 "ConnectorPhaseRotation".toList "1xRST".toList .ok).2 = .accepted ∧
    (change demoEnv demo 0 "ConnectorEvseIds".toList [] .ok).2 = .accepted ∧ ¬ Legal evseIdsRow.ty [] := by
  have h1 : change demoEnv demo 0 "CompositeScheduleDefaultNumberPhases".toList "2x".toList .ok = storeKey demo "CompositeScheduleDefaultNumberPhases".toList (.int 2) .ok .accepted :=
    change_val (e := phasesRow) (v := .int 3) (demo_known phasesRow_mem) (by decide) (by decide) (by decide) rfl (by decide) (by decide) (by decide) (by decide)
  have h2 : change demoEnv demo 0 "ConnectorPhaseRotation".toList "1xRST".toList .ok = storeKey demo "ConnectorPhaseRotation".toList (.text "1xRST".toList) .ok .accepted :=
    change_val (e := rotationRow) (v := .text "0.RST".toList) (demo_known rotationRow_mem) (by decide) (by decide) (by decide) rfl (by decide) (by decide) (by decide)
      (by decide +kernel)
  have h3 : change demoEnv demo 0 "ConnectorEvseIds".toList [] .ok = storeKey demo "ConnectorEvseIds".toList (.text []) .ok .accepted :=
    change_val (e := evseIdsRow) (v := .text "DE*ABC*E1".toList) (demo_known evseIdsRow_mem) (by decide) (by decide) (by decide) rfl (by decide) (by decide) (by decide)
      (by decide)
  rw [h1, h2, h3]
  refine ⟨by decide, ?_, by decide, by decide, ?_⟩
  · rintro ⟨n, ds, hne, hd, hc⟩
    rcases hc with ⟨hc, _⟩ | ⟨hc, _⟩ | ⟨hc, _⟩
    · have := hd 'x' (by rw [← hc]; decide)
      revert this
      decide
    · cases hc
    · cases hc
  · rintro ⟨h, _⟩
    simp at h

end Verif.Conf16
