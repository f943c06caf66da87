import Verif.Conf16.Theorems2
/-! C135, C136: what GetConfiguration reports, and whether keys that are reported as writable can be changed. -/
set_option linter.unusedSimpArgs false

namespace Verif.Conf16

/-! ## C135 -/

/-- A key is reported, with a value or without. -/
def Reported (g : Got) : Prop := ∃ n ro v, g = .kv n ro v

/-- C135, partial: in the answer to a GetConfiguration for some keys each of them is either in the list of unknown keys or reported, and nothing else is in the answer;
the number of entries is that of the keys.  There is an answer if the value of each key has at most 500 bytes (see `C135_long_violated`). -/
theorem C135_partial {env : Env} {s : St} : ∀ ks : List Text,
    ((∀ k ∈ ks, get env s k ≠ .throws) ↔ ∃ a, getSome env s ks = some a) ∧
    ∀ kvs unk, getSome env s ks = some (kvs, unk) →
      kvs.length + unk.length = ks.length
      ∧ (∀ k ∈ ks, (get env s k = .unknown ∧ k ∈ unk) ∨ (Reported (get env s k) ∧ get env s k ∈ kvs))
      ∧ (∀ k ∈ unk, k ∈ ks ∧ get env s k = .unknown)
      ∧ (∀ g ∈ kvs, Reported g ∧ ∃ k ∈ ks, get env s k = g) := by
  intro ks
  induction ks with
  | nil =>
    refine ⟨⟨fun _ => ⟨_, rfl⟩, fun _ k hk => by cases hk⟩, fun kvs unk h => ?_⟩
    simp only [getSome, Option.some.injEq, Prod.mk.injEq] at h
    obtain ⟨rfl, rfl⟩ := h
    exact ⟨rfl, fun k hk => by (cases hk), fun k hk => by (cases hk), fun k hk => by (cases hk)⟩
  | cons k r ih =>
    cases hg : get env s k with
    | throws =>
      refine ⟨⟨fun h => absurd hg (h k (by simp)), fun ⟨a, h⟩ => ?_⟩, fun kvs unk h => ?_⟩
      · simp only [getSome, hg] at h
        cases h
      · simp only [getSome, hg] at h
        cases h
    | unknown =>
      refine ⟨⟨fun h => ?_, fun ⟨a, h⟩ k' hk' => ?_⟩, fun kvs unk h => ?_⟩
      · obtain ⟨a, ha⟩ := ih.1.mp (fun k' hk' => h k' (by simp [hk']))
        exact ⟨(a.1, k :: a.2), by simp only [getSome, hg, ha, Option.map_some]⟩
      · rcases List.mem_cons.mp hk' with rfl | hk'
        · rw [hg]; simp
        · simp only [getSome, hg] at h
          cases hr : getSome env s r with
          | none => rw [hr] at h; cases h
          | some a => exact ih.1.mpr ⟨a, hr⟩ k' hk'
      · simp only [getSome, hg] at h
        cases hr : getSome env s r with
        | none => rw [hr] at h; cases h
        | some a =>
          rw [hr] at h
          simp only [Option.map_some, Option.some.injEq, Prod.mk.injEq] at h
          obtain ⟨rfl, rfl⟩ := h
          obtain ⟨h1, h2, h3, h4⟩ := ih.2 a.1 a.2 (by rw [hr])
          refine ⟨by simp only [List.length_cons]; omega, fun k' hk' => ?_, fun k' hk' => ?_, fun g hk' => ?_⟩
          · rcases List.mem_cons.mp hk' with rfl | hk'
            · exact .inl ⟨hg, by simp⟩
            · rcases h2 k' hk' with h | h
              · exact .inl ⟨h.1, by simp [h.2]⟩
              · exact .inr h
          · rcases List.mem_cons.mp hk' with rfl | hk'
            · exact ⟨by simp, hg⟩
            · exact ⟨by simp [(h3 k' hk').1], (h3 k' hk').2⟩
          · obtain ⟨h5, k', h6, h7⟩ := h4 g hk'
            exact ⟨h5, k', by simp [h6], h7⟩
    | kv n ro v =>
      refine ⟨⟨fun h => ?_, fun ⟨a, h⟩ k' hk' => ?_⟩, fun kvs unk h => ?_⟩
      · obtain ⟨a, ha⟩ := ih.1.mp (fun k' hk' => h k' (by simp [hk']))
        exact ⟨(.kv n ro v :: a.1, a.2), by simp only [getSome, hg, ha, Option.map_some]⟩
      · rcases List.mem_cons.mp hk' with rfl | hk'
        · rw [hg]; simp
        · simp only [getSome, hg] at h
          cases hr : getSome env s r with
          | none => rw [hr] at h; cases h
          | some a => exact ih.1.mpr ⟨a, hr⟩ k' hk'
      · simp only [getSome, hg] at h
        cases hr : getSome env s r with
        | none => rw [hr] at h; cases h
        | some a =>
          rw [hr] at h
          simp only [Option.map_some, Option.some.injEq, Prod.mk.injEq] at h
          obtain ⟨rfl, rfl⟩ := h
          obtain ⟨h1, h2, h3, h4⟩ := ih.2 a.1 a.2 (by rw [hr])
          refine ⟨by simp only [List.length_cons]; omega, fun k' hk' => ?_, fun k' hk' => ?_, fun g hk' => ?_⟩
          · rcases List.mem_cons.mp hk' with rfl | hk'
            · exact .inr ⟨⟨n, ro, v, hg⟩, by rw [hg]; simp⟩
            · rcases h2 k' hk' with h | h
              · exact .inl h
              · exact .inr ⟨h.1, by simp [h.2]⟩
          · exact ⟨by simp [(h3 k' hk').1], (h3 k' hk').2⟩
          · rcases List.mem_cons.mp hk' with rfl | hk'
            · exact ⟨⟨n, ro, v, rfl⟩, k, by simp, hg⟩
            · obtain ⟨h5, k', h6, h7⟩ := h4 g hk'
              exact ⟨h5, k', by simp [h6], h7⟩

/-- Two stations whose configurations differ at most in the authorization key, which both have. -/
structure SameButKey (s s' : St) : Prop where
  keys : ∀ k, k ≠ authKey → s.cfg.keys k = s'.cfg.keys k
  cust : s.cfg.cust = s'.cfg.cust
  price : s.cfg.price = s'.cfg.price
  has : (s.cfg.keys authKey).isSome = (s'.cfg.keys authKey).isSome

theorem get_secret {env : Env} {s s' : St} (h : SameButKey s s') (k : Text) : get env s k = get env s' k := by
  unfold get
  cases he : entry env k with
  | some e =>
    have hm := (entry_some he).1.1
    dsimp only
    unfold report
    rw [h.keys e.name (auth_row hm)]
  | none =>
    have hml : multiLang s = multiLang s' := by
      unfold multiLang
      rw [h.keys "CustomMultiLanguageMessages".toList (by decide)]
    dsimp only
    unfold reportPrice reportCustom
    rw [hml, h.cust, h.price]

/-- C135: no answer to GetConfiguration, for some keys or for all, depends on the value of AuthorizationKey: two stations that differ only in this value answer alike. -/
theorem C135_secret {env : Env} {s s' : St} (h : SameButKey s s') :
    (∀ ks, getSome env s ks = getSome env s' ks) ∧ ∀ custom, getAll env s custom = getAll env s' custom := by
  constructor
  · intro ks
    induction ks with
    | nil => rfl
    | cons k r ih => simp only [getSome, get_secret h k, ih]
  · intro custom
    unfold getAll
    have h1 : (table.filter (fun e => env.sup e.sect && (s.cfg.keys e.name).isSome)).map (fun e => get env s e.name) =
        (table.filter (fun e => env.sup e.sect && (s'.cfg.keys e.name).isSome)).map (fun e => get env s' e.name) := by
      have : table.filter (fun e => env.sup e.sect && (s.cfg.keys e.name).isSome) = table.filter (fun e => env.sup e.sect && (s'.cfg.keys e.name).isSome) := by
        apply List.filter_congr
        intro e he
        rw [h.keys e.name (auth_row he)]
      rw [this]
      apply List.map_congr_left
      intro e _
      exact get_secret h _
    have h2 : allPrices env s = allPrices env s' := by unfold allPrices; rw [h.price]
    have h3 : custom.map (get env s) = custom.map (get env s') := List.map_congr_left (fun k _ => get_secret h k)
    rw [h1, h2, h3, h.has, get_secret h authKey]

example : SameButKey demo (storeKey demo authKey (.text "00000000".toList) .ok .accepted).1 ∧
    demo.cfg.keys authKey ≠ (storeKey demo authKey (.text "00000000".toList) .ok .accepted).1.cfg.keys authKey := by
  refine ⟨⟨fun k hk => ?_, rfl, rfl, by decide⟩, by decide⟩
  show demo.cfg.keys k = upd demo.cfg.keys authKey _ k
  simp [upd, hk]

theorem collect_mem {l : List Got} : ∀ {r : List Got}, collect l = some r → ∀ g, g ∈ r ↔ g ∈ l ∧ g ≠ .unknown := by
  induction l with
  | nil => intro r h g; simp only [collect, Option.some.injEq] at h; subst h; simp
  | cons x l ih =>
    intro r h g
    cases x with
    | throws => cases h
    | unknown =>
      simp only [collect] at h
      rw [ih h g, List.mem_cons]
      constructor
      · rintro ⟨h1, h2⟩; exact ⟨.inr h1, h2⟩
      · rintro ⟨h1 | h1, h2⟩
        · exact absurd h1 h2
        · exact ⟨h1, h2⟩
    | kv n ro v =>
      simp only [collect] at h
      cases hc : collect l with
      | none => rw [hc] at h; cases h
      | some r' =>
        rw [hc] at h
        simp only [Option.map_some, Option.some.injEq] at h
        subst h
        rw [List.mem_cons, List.mem_cons, ih hc g]
        constructor
        · rintro (rfl | ⟨h1, h2⟩)
          · exact ⟨.inl rfl, by simp⟩
          · exact ⟨.inr h1, h2⟩
        · rintro ⟨h1 | h1, h2⟩
          · exact .inl h1
          · exact .inr ⟨h1, h2⟩

/-- C135, partial: a GetConfiguration without keys reports each standard key that has a value and whose profile is supported, as a request for this key does. -/
theorem C135_all_partial {env : Env} {s : St} {custom : List Text} {l : List Got} {e : Key} (h : getAll env s custom = some l) (he : e ∈ table) (hs : env.sup e.sect = true)
    (hv : s.cfg.keys e.name ≠ none) : Reported (get env s e.name) ∧ get env s e.name ∈ l := by
  have hm : get env s e.name ∈ (table.filter (fun e => env.sup e.sect && (s.cfg.keys e.name).isSome)).map (fun e => get env s e.name) := by
    refine List.mem_map.mpr ⟨e, List.mem_filter.mpr ⟨he, ?_⟩, rfl⟩
    cases hk : s.cfg.keys e.name with
    | none => exact absurd hk hv
    | some v => simp [hs]
  have hne : get env s e.name ≠ .unknown := by
    rw [get_known ⟨he, fun _ => hs⟩ (ciEq_refl _)]
    unfold report
    cases hk : s.cfg.keys e.name with
    | none => exact absurd hk hv
    | some v =>
      simp only [mkKv]
      split <;> simp
  have hin := (collect_mem h (get env s e.name)).mpr ⟨by simp [List.mem_append, hm], hne⟩
  refine ⟨?_, hin⟩
  cases hg : get env s e.name with
  | kv n ro v => exact ⟨n, ro, v, rfl⟩
  | unknown => exact absurd hg hne
  | throws =>
    rw [hg] at hin
    have : ∀ {l r : List Got}, collect l = some r → Got.throws ∉ r := by
      intro l
      induction l with
      | nil => intro r h; simp only [collect, Option.some.injEq] at h; subst h; simp
      | cons x l ih =>
        intro r h
        cases x with
        | throws => cases h
        | unknown => exact ih h
        | kv n ro v =>
          simp only [collect] at h
          cases hc : collect l with
          | none => rw [hc] at h; cases h
          | some r' =>
            rw [hc] at h
            simp only [Option.map_some, Option.some.injEq] at h
            subst h
            simp [ih hc]
    exact absurd hin (this h)

theorem collect_throws {l : List Got} (h : Got.throws ∈ l) : collect l = none := by
  induction l with
  | nil => cases h
  | cons x l ih =>
    cases x with
    | throws => rfl
    | unknown =>
      rcases List.mem_cons.mp h with h | h
      · cases h
      · exact ih h
    | kv n ro v =>
      rcases List.mem_cons.mp h with h | h
      · cases h
      · simp only [collect, ih h, Option.map_none]

def longPrice : Text := "{\"x\":[[[[[[[[[[[[[[[[]]]]]]]]]]]]]]]]}".toList

/-- C135 is violated: a default price whose indented form has more than 500 bytes is accepted.  From then on GetConfiguration without keys, GetConfiguration for
DefaultPrice and each change of DefaultPrice are answered with an error, so that a CSMS cannot repair it. -/
theorem C135_long_violated : ∃ env base user s0 s, boot env base user = some s0 ∧ (change env s0 0 "DefaultPrice".toList longPrice .ok).2 = .accepted ∧
    run env s0 [.change 0 "DefaultPrice".toList longPrice .ok] = some s ∧
    (∀ custom, getAll env s custom = none) ∧ getSome env s ["DefaultPrice".toList] = none ∧
    ∀ now t w, (change env s now "DefaultPrice".toList t w).2 = .error ∧ (change env s now "DefaultPrice".toList t w).1 = s := by
  have h : change demoEnv demo 0 "DefaultPrice".toList longPrice .ok = storeKey demo "DefaultPrice".toList (.json ⟨List.replicate 600 ' ', true⟩) .ok .accepted :=
    change_val (e := priceRow) (v := .json ⟨"{}".toList, true⟩) (demo_known priceRow_mem) (by decide) (by decide) (by decide) rfl (by decide) (by decide) (by decide)
      (by decide +kernel)
  have hrep : report demoEnv (storeKey demo "DefaultPrice".toList (.json ⟨List.replicate 600 ' ', true⟩) .ok .accepted).1 priceRow = .throws := by
    unfold report
    rw [show (storeKey demo "DefaultPrice".toList (.json ⟨List.replicate 600 ' ', true⟩) .ok .accepted).1.cfg.keys priceRow.name =
      some (.json ⟨List.replicate 600 ' ', true⟩) from by decide +kernel]
    have hlong : bytes (Val.json ⟨List.replicate 600 ' ', true⟩).show > 500 := by
      have := bytes_ge (List.replicate 600 ' ')
      rw [List.length_replicate] at this
      show bytes (List.replicate 600 ' ') > 500
      omega
    simp only [mkKv]
    rw [if_pos hlong]
  have hget : get demoEnv (storeKey demo "DefaultPrice".toList (.json ⟨List.replicate 600 ' ', true⟩) .ok .accepted).1 "DefaultPrice".toList = .throws := by
    rw [get_known (demo_known priceRow_mem) (by decide), hrep]
  refine ⟨demoEnv, demoBase, noChanges, demo, (storeKey demo "DefaultPrice".toList (.json ⟨List.replicate 600 ' ', true⟩) .ok .accepted).1, demo_boot, ?_, ?_, ?_, ?_, ?_⟩
  · rw [h]; decide
  · simp only [run, step, h]
  · intro custom
    unfold getAll
    apply collect_throws
    refine List.mem_append.mpr (.inl (List.mem_append.mpr (.inl (List.mem_append.mpr (.inl (List.mem_map.mpr ⟨priceRow, List.mem_filter.mpr ⟨priceRow_mem, ?_⟩, hget⟩))))))
    rfl
  · simp only [getSome, hget]
  · intro now t w
    unfold change
    rw [hget]
    exact ⟨rfl, rfl⟩

/-! ## C136 -/

/-- A number that the check of the row admits is among the samples, the texts have a legal length, a guard for the profile is on rows that need the profile anyway, and
only the three keys for the reconnection have no branch. -/
def changeable (e : Key) : Bool :=
  e.ro == .yes || (match e.rule with
    | .none => ["RetryBackoffRandomRange".toList, "RetryBackoffRepeatTimes".toList, "RetryBackoffWaitMinimum".toList].any (· == e.name)
    | .nat lo hi => (decide (lo ≤ 86400) && hi == none) || (decide (lo ≤ 100) && (match hi with
        | some h => decide (100 ≤ h)
        | none => false))
    | .text lo hi => match hi with
        | some h => decide (lo ≤ h)
        | none => true
    | .unlock => e.ro == .unlock
    | _ => true) && (e.guard != .profile || e.gated)

theorem table_changeable : table.all changeable = true := by decide +kernel

theorem bytes_replicate (n : Nat) : bytes (List.replicate n 'a') = n := by
  induction n with
  | zero => rfl
  | succ n ih =>
    have : bytes (List.replicate (n + 1) 'a') = 1 + bytes (List.replicate n 'a') := by
      simp only [bytes, List.replicate_succ, List.map_cons, List.sum_cons]
      rfl
    omega

theorem rotation_sample {n : Int} (h : 0 ≤ n) : rotationOk n "0.Unknown".toList = true := by
  have h1 : splitAll [] ("0.Unknown".toList.filter (fun c => !isSpace c)) = ["0.Unknown".toList] := by decide +kernel
  unfold rotationOk
  rw [h1]
  simp only [List.all_cons, List.all_nil, Bool.and_true, Bool.or_eq_true, List.any_eq_true]
  refine .inl ⟨0, ?_, .inr (by decide)⟩
  rw [List.mem_range]
  omega

/-- C136, partial: each standard key that GetConfiguration reports with a value and as writable can be changed: there is a value that is accepted, and this request
leaves a file in which the key has a value.
Missing: SecurityProfile (see `C137_partial`) and the keys of `C136_violated`.  The environment must know some measurand, some JSON text and some time in the future. -/
theorem C136_partial {env : Env} {s : St} {u : Maps} {now : Int} {e : Key} {k : Text} {v : Text} (hu : s.user = some u) (he : Known env e) (hk : SameName k e.name)
    (hg : get env s k = .kv e.name false (some v)) (hp : e.name ≠ profileKey)
    (hr : e.name ∉ ["RetryBackoffRandomRange".toList, "RetryBackoffRepeatTimes".toList, "RetryBackoffWaitMinimum".toList])
    (hn : 0 ≤ numberOfConnectors s) (hm : ∃ t, env.measurandsOk t = true) (hj : ∃ t j, env.parse t = some j) (hd : ∃ t d, env.date t = some d ∧ now < d) :
    ∃ t, ¬ Refused (change env s now k t .ok).2 ∧ ∃ u' x, (change env s now k t .ok).1.user = some u' ∧ u'.keys e.name = some x := by
  have hk' := sameName_iff.mp hk
  rw [get_known he hk'] at hg
  have hval : ∃ x, s.cfg.keys e.name = some x ∧ bytes x.show ≤ 500 ∧ roOf env e.ro = false := by
    unfold report at hg
    cases hx : s.cfg.keys e.name with
    | none =>
      rw [hx] at hg
      dsimp only at hg
      split at hg
      · simp [mkKv] at hg
      · cases hg
    | some x =>
      rw [hx] at hg
      simp only [mkKv] at hg
      split at hg
      · cases hg
      · simp only [Got.kv.injEq] at hg
        exact ⟨x, rfl, by omega, hg.2.1⟩
  obtain ⟨x0, hx0, hb0, hro⟩ := hval
  have hrow := List.all_eq_true.mp table_changeable e he.1
  unfold changeable at hrow
  have hyes : (e.ro == Ro.yes) = false := by
    cases h : e.ro == Ro.yes with
    | false => rfl
    | true => rw [beq_iff_eq] at h; rw [h] at hro; cases hro
  rw [hyes] at hrow
  simp only [Bool.false_or, Bool.and_eq_true] at hrow
  have hpr : e.rule ≠ .profile := fun h => hp ((profile_iff he.1).mp h)
  have hno : e.rule ≠ .none := by
    intro h
    have h1 := hrow.1
    rw [h] at h1
    simp only [List.any_eq_true, beq_iff_eq, exists_eq_right] at h1
    exact hr h1
  have hbl : blocked env s e = false := by
    unfold blocked
    cases hgd : e.guard with
    | none => rfl
    | absent => rw [hx0]; rfl
    | profile =>
      have h2 := hrow.2
      rw [hgd] at h2
      have : e.gated = true := by simpa using h2
      simp [he.2 this]
  have hdone : ∀ t x, check env s now e.rule t = .val x → ¬ Refused (change env s now k t .ok).2 ∧
      ∃ u' x, (change env s now k t .ok).1.user = some u' ∧ u'.keys e.name = some x := by
    intro t x hc
    rw [change_val he hk' hx0 hb0 hro hno hpr hbl hc]
    refine ⟨storeKey_refused hu (by split <;> simp [Refused]), putKey e.name x u, x, ?_, by simp [putKey, upd]⟩
    simp only [storeKey, store_ok _ hu]
    rfl
  have hr1 := hrow.1
  cases hrule : e.rule with
  | none => exact absurd hrule hno
  | profile => exact absurd hrule hpr
  | bool => exact ⟨"true".toList, hdone _ (.bool true) (by rw [hrule]; rfl)⟩
  | boolAny => exact ⟨"true".toList, hdone _ (.bool true) (by rw [hrule]; rfl)⟩
  | unlock =>
    rw [hrule] at hr1
    have hro' : e.ro = .unlock := by simpa using hr1
    rw [hro'] at hro
    refine ⟨"true".toList, hdone _ (.bool true) ?_⟩
    rw [hrule]
    have : env.unlockRo = false := hro
    simp only [check, orReject, this]
    rfl
  | nat lo hi =>
    rw [hrule] at hr1
    simp only [Bool.or_eq_true, Bool.and_eq_true, decide_eq_true_eq, beq_iff_eq] at hr1
    rcases hr1 with ⟨h1, h2⟩ | ⟨h1, h2⟩
    · refine ⟨"86400".toList, hdone _ (.int 86400) ?_⟩
      rw [hrule, h2]
      simp only [check, orReject, show positive "86400".toList = some 86400 from by decide +kernel, h1, decide_true, Bool.true_and, if_true]
    · cases hi with
      | none => cases h2
      | some b =>
        simp only [decide_eq_true_eq] at h2
        refine ⟨"100".toList, hdone _ (.int 100) ?_⟩
        rw [hrule]
        simp only [check, orReject, show positive "100".toList = some 100 from by decide +kernel, h1, h2, decide_true, Bool.true_and, if_true]
  | phases => exact ⟨"1".toList, hdone _ (.int 1) (by rw [hrule]; rfl)⟩
  | text lo hi =>
    rw [hrule] at hr1
    refine ⟨List.replicate lo 'a', hdone _ (.text (List.replicate lo 'a')) ?_⟩
    rw [hrule]
    simp only [check, orReject, bytes_replicate]
    cases hi with
    | none => simp
    | some b =>
      have : lo ≤ b := by simpa using hr1
      simp [this]
  | rotation =>
    refine ⟨"0.Unknown".toList, hdone _ (.text "0.Unknown".toList) ?_⟩
    rw [hrule]
    simp only [check, orReject, rotation_sample hn, if_true]
  | measurands =>
    obtain ⟨t, ht⟩ := hm
    refine ⟨t, hdone _ (.text t) ?_⟩
    rw [hrule]
    simp only [check, orReject, ht, if_true]
  | purposes => exact ⟨[], hdone _ (.text []) (by rw [hrule]; rfl)⟩
  | evseIds => exact ⟨[], hdone _ (.text []) (by rw [hrule]; rfl)⟩
  | json =>
    obtain ⟨t, j, ht⟩ := hj
    refine ⟨t, hdone _ (.json j) ?_⟩
    rw [hrule]
    simp only [check, ht]
  | offset =>
    refine ⟨"00:00".toList, hdone _ (.text "00:00".toList) ?_⟩
    rw [hrule]
    simp only [check, orReject, show offsetOk "00:00".toList = true from by decide +kernel, if_true]
  | future =>
    obtain ⟨t, d, ht, hnow⟩ := hd
    refine ⟨t, hdone _ (.text t) ?_⟩
    rw [hrule]
    simp only [check, orReject, ht, hnow, decide_true, if_true]
  | uri => exact ⟨"wss://c.example".toList, hdone _ (.text "wss://c.example".toList) (by rw [hrule]; rfl)⟩

example : get demoEnv demo "connectorphaserotation".toList = .kv rotationRow.name false (some "0.RST".toList) ∧ 0 ≤ numberOfConnectors demo ∧
    (∃ t j, demoEnv.parse t = some j) ∧ (∃ t d, demoEnv.date t = some d ∧ (5 : Int) < d) := by
  refine ⟨?_, by decide, ⟨"{}".toList, _, rfl⟩, ⟨[], 100, rfl, by decide⟩⟩
  rw [get_known (demo_known rotationRow_mem) (by decide)]
  decide

/-- The three rows without a branch. -/
theorem retry_rows : table.all (fun e => !["RetryBackoffRandomRange".toList, "RetryBackoffRepeatTimes".toList, "RetryBackoffWaitMinimum".toList].any (· == e.name) ||
    (e.rule == .none && e.ro == .no && !e.gated)) = true := by decide +kernel

/-- C136 is violated: the three keys for the reconnection are reported as writable, and every change of them is rejected, whatever the value. -/
theorem C136_violated {env : Env} {s : St} {e : Key} {n : Int} (now : Int) (t : Text) (w : Write) (he : e ∈ table)
    (hn : e.name ∈ ["RetryBackoffRandomRange".toList, "RetryBackoffRepeatTimes".toList, "RetryBackoffWaitMinimum".toList]) (hf : Fresh s.cfg)
    (hv : s.cfg.keys e.name = some (.int n)) (hb : bytes (Val.int n).show ≤ 500) :
    (∃ v, get env s e.name = .kv e.name false v) ∧ change env s now e.name t w = (s, .rejected) := by
  have hrow := List.all_eq_true.mp retry_rows e he
  have hany : ["RetryBackoffRandomRange".toList, "RetryBackoffRepeatTimes".toList, "RetryBackoffWaitMinimum".toList].any (· == e.name) = true := by
    simp only [List.any_eq_true, beq_iff_eq, exists_eq_right]
    exact hn
  rw [hany] at hrow
  simp only [Bool.not_true, Bool.false_or, Bool.and_eq_true, beq_iff_eq, Bool.not_eq_true'] at hrow
  obtain ⟨⟨hr, hro⟩, hgt⟩ := hrow
  have hkn : Known env e := ⟨he, fun h => by rw [hgt] at h; cases h⟩
  have hrep : report env s e = .kv e.name false (some (Val.int n).show) := by
    rw [report_some hv hb, hro]
    rfl
  refine ⟨⟨_, by rw [get_known hkn (ciEq_refl _), hrep]⟩, ?_⟩
  rw [change_known hkn (ciEq_refl _), hrep]
  simp only [Bool.false_eq_true, if_false]
  exact doSet_none he (ciEq_refl _) hr (fresh_none hf he (ciEq_refl _))

example : retryRow ∈ table ∧ demo.cfg.keys retryRow.name = some (.int 10) ∧ bytes (Val.int 10).show ≤ 500 := ⟨retryRow_mem, by decide, by decide⟩

end Verif.Conf16
