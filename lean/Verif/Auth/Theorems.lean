import Verif.Auth.Stages
/-
Properties C24-C28 and C57-C59: authorization of tokens, the authorization cache and the local
authorization list.
-/
namespace Verif.Auth

/-! ### Example configuration and tokens -/

def exCfg : Config :=
  { authEnabled := true, localAuthorizeOffline := true, localPreAuthorize := true,
    disableRemote := false, centralContract := true, contractOffline := true, listEnabled := true,
    cacheEnabled := true, lifetime := some 60, disablePostAuthorize := false, offlineUnknown := false }

def exEnv (online : Bool) (answer : Option Resp) : Env :=
  { online := online, onlineAtRequest := online, now := 100000, verify := .valid, moOcsp := [1],
    csms := fun _ => answer }

def exTok : Token := ⟨iso14443, ['a','b']⟩
def exTok2 : Token := ⟨iso14443, ['c','d']⟩
def exMaid : Token := ⟨eMAID, ['D','E']⟩
def yes : Info := .only .accepted
def no : Info := .only .blocked

def exDb : Db :=
  { cache := [⟨key exTok, yes, 90000⟩], list := [(key exTok2, no)], version := 3 }

/-! ### C24: a token is accepted only with a justification -/

/-- C24: validate_token answers Accepted only for one of the reasons of `Justified`: no authorization is
needed, the CSMS accepted the token in this very call, the local list or a fresh cache row accepts it
and may be used, or the station is offline, may accept unknown tokens and the list does not know it. For
a contract (eMAID) the local reasons need in addition a certificate found valid. -/
theorem C24_justified (cfg : Config) (env : Env) (t : Token) (cert : Option Str)
    (ocsp : Option (List Nat)) (db : Db)
    (h : (validate cfg env t cert ocsp db).resp.info.status = .accepted) :
    Justified cfg env t cert db (validate cfg env t cert ocsp db).sent := by
  unfold validate at h ⊢
  split
  · rename_i he
    exact .exempt ((exempt_iff cfg t).mp he)
  · rename_i he
    rw [if_neg he] at h
    split
    · rename_i hm
      rw [if_pos hm] at h
      split
      · rename_i p q hp
        rw [hp] at h
        obtain ⟨r, a, m1, m2, m3, m4⟩ := emaid_accepts hp h
        exact .csms r a m1 m2 m3 m4
      · rename_i hp
        rw [hp] at h
        exact localStages_justified (fun _ => emaid_none.mp hp) h
    · rename_i hm
      rw [if_neg hm] at h
      refine localStages_justified ?_ h
      intro ht
      exfalso
      apply hm
      unfold ciEq
      simpa [HasType] using ht

example : (validate exCfg (exEnv true none) exTok none none exDb).resp.info.status = .accepted ∧
    (validate exCfg (exEnv true (some { info := yes })) exTok2 none none exDb).resp.info.status
      = .accepted ∧
    (validate exCfg (exEnv true (some { info := no })) exTok2 none none exDb).resp.info.status
      = .blocked := by decide

/-- A token for which list and cache are consulted: not exempt and, if it is a contract, found valid
while offline. -/
def LookedUp (cfg : Config) (env : Env) (t : Token) (cert : Option Str) : Prop :=
  ¬ Exempt cfg t ∧ ContractOk cfg env t cert

theorem validate_lookedUp {cfg : Config} {env : Env} {t : Token} {cert : Option Str}
    {ocsp : Option (List Nat)} {db : Db} (h : LookedUp cfg env t cert) :
    validate cfg env t cert ocsp db = localStages cfg env t cert ocsp db := by
  unfold validate
  rw [if_neg (fun he => h.1 ((exempt_iff cfg t).mp he))]
  split
  · rename_i hm
    have : HasType t eMAID := by unfold ciEq at hm; simpa [HasType] using hm
    rw [emaid_none.mpr (h.2 this)]
  · rfl

/-- C24, the other direction for the local list: an entry that accepts the token is returned as it is,
and nothing is sent. -/
theorem C24_list_accepts (cfg : Config) (env : Env) (t : Token) (cert : Option Str)
    (ocsp : Option (List Nat)) (db : Db) (i : Info) (hu : UniqueKeys db)
    (ht : LookedUp cfg env t cert) (on : cfg.listEnabled = true) (perm : LocalPermitted cfg env)
    (hr : env.listReadFails = false) (hl : Listed db t i) (hi : i.status = .accepted) :
    (validate cfg env t cert ocsp db).resp = { info := i } ∧
    (validate cfg env t cert ocsp db).sent = [] := by
  rw [validate_lookedUp ht]
  have : listStage cfg env t cert ocsp db = some ({ info := i }, []) := by
    unfold listStage
    rw [on, (localAllowed_iff cfg env).mpr perm, hr, listGet_eq hu.1 hl]
    simp [hi]
  unfold localStages
  rw [this]
  exact ⟨rfl, rfl⟩

example : LookedUp exCfg (exEnv false none) exMaid (some ['x']) ∧
    LookedUp exCfg (exEnv true none) exTok none := by
  unfold LookedUp Exempt ContractOk HasType
  decide

/-- C24: an entry of the local list that does not accept the token is final while offline; while online
only the CSMS can overrule it in this call. Neither the cache nor the setting for unknown tokens
matters. -/
theorem C24_list_blocks (cfg : Config) (env : Env) (t : Token) (cert : Option Str)
    (ocsp : Option (List Nat)) (db : Db) (i : Info) (hu : UniqueKeys db)
    (hex : ¬ Exempt cfg t) (on : cfg.listEnabled = true)
    (perm : LocalPermitted cfg env) (hr : env.listReadFails = false) (hl : Listed db t i)
    (hi : i.status ≠ .accepted)
    (h : (validate cfg env t cert ocsp db).resp.info.status = .accepted) :
    env.onlineAtRequest = true ∧
    ∃ r a, r ∈ (validate cfg env t cert ocsp db).sent ∧ r.token = t ∧ env.csms r = some a ∧
      a.info.status = .accepted := by
  have key : ∃ r a, r ∈ (validate cfg env t cert ocsp db).sent ∧ r.token = t ∧ env.csms r = some a ∧
      a.info.status = .accepted := by
    unfold validate at h ⊢
    rw [if_neg (fun he => hex ((exempt_iff cfg t).mp he))] at h ⊢
    have hloc : (localStages cfg env t cert ocsp db).resp.info.status = .accepted →
        ∃ r a, r ∈ (localStages cfg env t cert ocsp db).sent ∧ r.token = t ∧ env.csms r = some a ∧
          a.info.status = .accepted := by
      intro h
      have hs : ∃ p, listStage cfg env t cert ocsp db = some p := by
        unfold listStage
        rw [on, (localAllowed_iff cfg env).mpr perm, hr, listGet_eq hu.1 hl]
        simp
      obtain ⟨p, hp⟩ := hs
      unfold localStages at h ⊢
      rw [hp] at h ⊢
      obtain ⟨_, _, _, j, hj, hc⟩ := listStage_some hp
      rw [listGet_eq hu.1 hl] at hj
      simp only [Option.some.injEq] at hj
      subst hj
      rcases hc with hc | hc | hc | hc
      · exact absurd hc.1 hi
      · rw [hc.2.2] at h; simp [Info.only] at h
      · rw [hc.2.2.2] at h ⊢
        exact authorizeReq_accepts h
      · rw [hc.2.2] at h; simp [Info.only] at h
    split
    · rename_i hm
      rw [if_pos hm] at h
      split
      · rename_i p q hp
        rw [hp] at h
        exact emaid_accepts hp h
      · rename_i hp
        rw [hp] at h
        exact hloc h
    · rename_i hm
      rw [if_neg hm] at h
      exact hloc h
  refine ⟨?_, key⟩
  obtain ⟨r, a, hr', _⟩ := key
  -- requests are only sent with a connection
  have hnone : ∀ q, env.onlineAtRequest = false → (authorizeReq env q).2 = [] := by
    intro q hq; unfold authorizeReq; rw [hq]; simp
  cases ho : env.onlineAtRequest with
  | true => rfl
  | false =>
    exfalso
    have e1 : ∀ p, emaid cfg env t cert ocsp = some p → p.2 = [] := by
      intro p hp
      unfold emaid at hp
      split at hp
      · simp only [Option.some.injEq] at hp; rw [← hp]; exact hnone _ ho
      · split at hp
        · split at hp
          · simp only [Option.some.injEq] at hp
            rw [← hp]
            unfold emaidOnline centralValidation
            split
            · split <;> simp [hnone _ ho]
            · split
              · split <;> simp [hnone _ ho]
              · exact hnone _ ho
          · simp only [Option.map_eq_some_iff] at hp
            obtain ⟨x, _, rfl⟩ := hp; rfl
        · simp only [Option.some.injEq] at hp; rw [← hp]
    have e2 : (localStages cfg env t cert ocsp db).sent = [] := by
      unfold localStages
      split
      · rename_i p q hp
        obtain ⟨_, _, _, j, _, hc⟩ := listStage_some hp
        rcases hc with hc | hc | hc | hc
        · exact (Prod.mk.inj hc.2).2
        · exact (Prod.mk.inj hc.2.2).2
        · have h3 := congrArg Prod.snd hc.2.2.2
          simp only at h3
          rw [h3]; exact hnone _ ho
        · exact (Prod.mk.inj hc.2.2).2
      · dsimp only
        split
        · rfl
        · unfold lastStage
          split
          · rfl
          · split
            · rfl
            · exact hnone _ ho
    unfold validate at hr'
    split at hr'
    · simp at hr'
    · split at hr'
      · split at hr'
        · rename_i p q hp
          have := e1 _ hp
          simp only at this
          rw [this] at hr'; simp at hr'
        · rw [e2] at hr'; simp at hr'
      · rw [e2] at hr'; simp at hr'

example : (key exTok2, no) ∈ exDb.list ∧ no.status ≠ .accepted ∧
    (validate exCfg (exEnv true (some { info := yes })) exTok2 none none exDb).resp.info.status
      = .accepted ∧
    (validate { exCfg with offlineUnknown := true } (exEnv false none) exTok2 none none
      exDb).resp.info.status = .unknown := by decide

/-- C24, the other direction for the cache: a fresh row that accepts the token is returned as it is when
the list does not know the token, and nothing is sent. -/
theorem C24_cache_accepts (cfg : Config) (env : Env) (t : Token) (cert : Option Str)
    (ocsp : Option (List Nat)) (db : Db) (r : Row) (hu : UniqueKeys db)
    (ht : LookedUp cfg env t cert) (on : cfg.cacheEnabled = true) (perm : LocalPermitted cfg env)
    (hl : cfg.listEnabled = false ∨ ∀ i, ¬ Listed db t i)
    (hr : env.cacheReadFails = false) (hw : env.cacheWriteFails = false)
    (hm : r ∈ db.cache) (hk : r.key = key t) (hf : Fresh cfg.lifetime env.now r)
    (hi : r.info.status = .accepted) :
    (validate cfg env t cert ocsp db).resp = { info := r.info } ∧
    (validate cfg env t cert ocsp db).sent = [] := by
  rw [validate_lookedUp ht]
  have h1 : listStage cfg env t cert ocsp db = none := by
    cases hs : listStage cfg env t cert ocsp db with
    | none => rfl
    | some p =>
      obtain ⟨a, _, _, i, hg, _⟩ := listStage_some hs
      rcases hl with hl | hl
      · rw [a] at hl; simp at hl
      · exact absurd (listGet_mem hg) (hl i)
  have h2 : (cacheStage cfg env t db.cache).1 = some r.info := by
    unfold cacheStage
    rw [on, (localAllowed_iff cfg env).mpr perm, hr, ← hk, cacheGet_eq hu.2 hm]
    simp [cacheHit, (rowExpired_false_iff cfg.lifetime env.now r).mpr hf, hi, hw]
  unfold localStages
  rw [h1]
  dsimp only
  rw [h2]
  exact ⟨rfl, rfl⟩

example : (⟨key exTok, yes, 90000⟩ : Row) ∈ exDb.cache ∧
    Fresh exCfg.lifetime (exEnv true none).now ⟨key exTok, yes, 90000⟩ ∧
    (validate exCfg (exEnv true none) exTok none none exDb).sent = [] := by
  unfold Fresh exCfg exEnv yes Info.only
  refine ⟨by decide, ⟨?_, ?_⟩, by decide⟩
  · intro s hs; simp at hs; subst hs; decide
  · intro e he; simp at he

/-! ### C25: no Authorize request when remote authorization is disabled -/

/-- C25 (partial: not for contracts): with DisableRemoteAuthorization no Authorize request is sent. -/
theorem C25_no_request_partial (cfg : Config) (env : Env) (t : Token) (cert : Option Str)
    (ocsp : Option (List Nat)) (db : Db) (hd : cfg.disableRemote = true) (hm : ¬ HasType t eMAID) :
    (validate cfg env t cert ocsp db).sent = [] := by
  unfold validate
  split
  · rfl
  · rw [if_neg (by unfold ciEq; simpa [HasType] using hm)]
    unfold localStages
    split
    · rename_i p q hp
      obtain ⟨_, _, _, j, _, hc⟩ := listStage_some hp
      rcases hc with hc | hc | hc | hc
      · exact (Prod.mk.inj hc.2).2
      · exact (Prod.mk.inj hc.2.2).2
      · rw [hd] at hc; simp at hc
      · exact (Prod.mk.inj hc.2.2).2
    · dsimp only
      split
      · rfl
      · unfold lastStage
        split
        · rfl
        · simp [hd]

example : ¬ HasType exTok eMAID ∧
    (validate { exCfg with disableRemote := true } (exEnv true (some { info := yes })) exTok2 none none
      exDb).resp.info.status = .unknown := by
  unfold HasType; decide

/-- C25 is violated for contracts: the setting is not consulted and the request goes out. -/
theorem C25_contract_violated :
    ∃ (cfg : Config) (env : Env) (t : Token) (ocsp : Option (List Nat)) (db : Db),
      cfg.disableRemote = true ∧ (validate cfg env t none ocsp db).sent ≠ [] :=
  ⟨{ exCfg with disableRemote := true }, exEnv true (some { info := yes }), exMaid, some [1], {},
    by decide⟩

/-- C25: whatever the configuration, one call sends at most one Authorize request, it is about the token
in question, none is sent for tokens that need no authorization (Central, NoAuthorization), and none
without a connection. -/
theorem C25_at_most_one (cfg : Config) (env : Env) (t : Token) (cert : Option Str)
    (ocsp : Option (List Nat)) (db : Db) :
    (validate cfg env t cert ocsp db).sent.length ≤ 1 ∧
    (∀ r ∈ (validate cfg env t cert ocsp db).sent, r.token = t) ∧
    ((validate cfg env t cert ocsp db).sent ≠ [] → ¬ Exempt cfg t ∧ env.onlineAtRequest = true) := by
  have a1 : ∀ q, (authorizeReq env q).2.length ≤ 1 ∧
      ((authorizeReq env q).2 ≠ [] → env.onlineAtRequest = true) := by
    intro q
    unfold authorizeReq
    split
    · exact ⟨by simp, fun _ => ‹_›⟩
    · exact ⟨by simp, fun h => absurd rfl h⟩
  have c1 : ∀ c, (centralValidation cfg env t c).2.length ≤ 1 ∧
      ((centralValidation cfg env t c).2 ≠ [] → env.onlineAtRequest = true) := by
    intro c
    unfold centralValidation
    split
    · exact a1 _
    · exact ⟨by simp, fun h => absurd rfl h⟩
  have e1 : ∀ p, emaid cfg env t cert ocsp = some p →
      p.2.length ≤ 1 ∧ (p.2 ≠ [] → env.onlineAtRequest = true) := by
    intro p hp
    unfold emaid at hp
    split at hp
    · simp only [Option.some.injEq] at hp; rw [← hp]; exact a1 _
    · split at hp
      · split at hp
        · simp only [Option.some.injEq] at hp
          rw [← hp]
          unfold emaidOnline
          split
          · exact c1 _
          · split
            · exact c1 _
            · exact a1 _
        · simp only [Option.map_eq_some_iff] at hp
          obtain ⟨x, _, rfl⟩ := hp
          exact ⟨by simp, fun h => absurd rfl h⟩
      · simp only [Option.some.injEq] at hp; rw [← hp]
        exact ⟨by simp, fun h => absurd rfl h⟩
  have l1 : (localStages cfg env t cert ocsp db).sent.length ≤ 1 ∧
      ((localStages cfg env t cert ocsp db).sent ≠ [] → env.onlineAtRequest = true) := by
    unfold localStages
    split
    · rename_i p q hp
      obtain ⟨_, _, _, j, _, hc⟩ := listStage_some hp
      rcases hc with hc | hc | hc | hc
      · rw [(Prod.mk.inj hc.2).2]; exact ⟨by simp, fun h => absurd rfl h⟩
      · rw [(Prod.mk.inj hc.2.2).2]; exact ⟨by simp, fun h => absurd rfl h⟩
      · have h3 := congrArg Prod.snd hc.2.2.2
        simp only at h3
        rw [h3]; exact a1 _
      · rw [(Prod.mk.inj hc.2.2).2]; exact ⟨by simp, fun h => absurd rfl h⟩
    · dsimp only
      split
      · exact ⟨by simp, fun h => absurd rfl h⟩
      · unfold lastStage
        split
        · exact ⟨by simp, fun h => absurd rfl h⟩
        · split
          · exact ⟨by simp, fun h => absurd rfl h⟩
          · exact a1 _
  have tok : ∀ r ∈ (validate cfg env t cert ocsp db).sent, r.token = t := by
    intro r hr
    unfold validate at hr
    split at hr
    · simp at hr
    · split at hr
      · split at hr
        · rename_i p q hp
          exact emaid_token hp hr
        · exact localStages_sent hr
      · exact localStages_sent hr
  refine ⟨?_, tok, ?_⟩
  · unfold validate
    split
    · simp
    · split
      · split
        · rename_i p q hp; exact (e1 _ hp).1
        · exact l1.1
      · exact l1.1
  · unfold validate
    split
    · exact fun h => absurd rfl h
    · rename_i he
      have he' : ¬ Exempt cfg t := fun h => he ((exempt_iff cfg t).mpr h)
      split
      · split
        · rename_i p q hp; exact fun h => ⟨he', (e1 _ hp).2 h⟩
        · exact fun h => ⟨he', l1.2 h⟩
      · exact fun h => ⟨he', l1.2 h⟩

example : (validate exCfg (exEnv true (some { info := yes })) exTok2 none none exDb).sent ≠ [] := by
  decide

/-! ### C28: the cache keeps what the CSMS said -/

/-- C28 (partial): what a call of validate_token may do to the cache. A row found afterwards either
carries an answer that was in the cache under the same key before, or it is the row of this token with
the answer given in this call. Rows of other tokens are untouched. A row of this token disappears only
if it had expired or is replaced. What is missing for the full property: the answer of this call must
come from the CSMS, see `C28_violated`. -/
theorem C28_rows_partial (cfg : Config) (env : Env) (t : Token) (cert : Option Str)
    (ocsp : Option (List Nat)) (db : Db) (hu : UniqueKeys db) :
    (∀ s ∈ (validate cfg env t cert ocsp db).cache,
      (∃ q ∈ db.cache, q.key = s.key ∧ q.info = s.info) ∨
      (s.key = key t ∧ s.info = (validate cfg env t cert ocsp db).resp.info ∧ s.lastUsed = env.now)) ∧
    (∀ s ∈ db.cache, s.key ≠ key t → s ∈ (validate cfg env t cert ocsp db).cache) ∧
    (∀ s ∈ db.cache, s.key = key t →
      (∃ q ∈ (validate cfg env t cert ocsp db).cache, q.key = s.key ∧
        (q.info = s.info ∨ q.info = (validate cfg env t cert ocsp db).resp.info)) ∨
      ¬ Fresh cfg.lifetime env.now s) := by
  have hst : ∀ i c, (∀ s ∈ storeAnswer cfg env t i c, s ∈ c ∨ s = ⟨key t, i, env.now⟩) ∧
      (∀ s ∈ c, s.key ≠ key t → s ∈ storeAnswer cfg env t i c) ∧
      (∀ s ∈ c, s.key = key t → ∃ q ∈ storeAnswer cfg env t i c, q.key = s.key ∧
        (q = s ∨ q.info = i)) := by
    intro i c
    refine ⟨fun s hs => mem_storeAnswer hs, ?_, ?_⟩
    · intro s hs hk
      unfold storeAnswer
      split
      · exact mem_cachePut.mpr (Or.inl ⟨hs, hk⟩)
      · exact hs
    · intro s hs hk
      unfold storeAnswer
      split
      · exact ⟨⟨key t, i, env.now⟩, mem_cachePut.mpr (Or.inr rfl), hk.symm, Or.inr rfl⟩
      · exact ⟨s, hs, rfl, Or.inl rfl⟩
  have hlast : ∀ c, (∀ s ∈ (lastStage cfg env t cert ocsp c).cache, s ∈ c ∨
        (s.key = key t ∧ s.info = (lastStage cfg env t cert ocsp c).resp.info ∧
          s.lastUsed = env.now)) ∧
      (∀ s ∈ c, s.key ≠ key t → s ∈ (lastStage cfg env t cert ocsp c).cache) ∧
      (∀ s ∈ c, s.key = key t → ∃ q ∈ (lastStage cfg env t cert ocsp c).cache, q.key = s.key ∧
        (q = s ∨ q.info = (lastStage cfg env t cert ocsp c).resp.info)) := by
    intro c
    unfold lastStage
    split
    · exact ⟨fun s hs => Or.inl hs, fun s hs _ => hs, fun s hs _ => ⟨s, hs, rfl, Or.inl rfl⟩⟩
    · split
      · exact ⟨fun s hs => Or.inl hs, fun s hs _ => hs, fun s hs _ => ⟨s, hs, rfl, Or.inl rfl⟩⟩
      · obtain ⟨h1, h2, h3⟩ :=
          hst (authorizeReq env { token := t, cert := cert, ocsp := ocsp }).1.info c
        refine ⟨fun s hs => ?_, h2, h3⟩
        rcases h1 s hs with h | h
        · exact Or.inl h
        · exact Or.inr (by rw [h]; exact ⟨rfl, rfl, rfl⟩)
  have hid : ∀ (R : Info),
      (∀ s ∈ db.cache, (∃ q ∈ db.cache, q.key = s.key ∧ q.info = s.info) ∨
        (s.key = key t ∧ s.info = R ∧ s.lastUsed = env.now)) ∧
      (∀ s ∈ db.cache, s.key ≠ key t → s ∈ db.cache) ∧
      (∀ s ∈ db.cache, s.key = key t →
        (∃ q ∈ db.cache, q.key = s.key ∧ (q.info = s.info ∨ q.info = R)) ∨
        ¬ Fresh cfg.lifetime env.now s) := fun R =>
    ⟨fun s hs => Or.inl ⟨s, hs, rfl, rfl⟩, fun s hs _ => hs,
     fun s hs _ => Or.inl ⟨s, hs, rfl, Or.inl rfl⟩⟩
  have hloc :
      (∀ s ∈ (localStages cfg env t cert ocsp db).cache,
        (∃ q ∈ db.cache, q.key = s.key ∧ q.info = s.info) ∨
        (s.key = key t ∧ s.info = (localStages cfg env t cert ocsp db).resp.info ∧
          s.lastUsed = env.now)) ∧
      (∀ s ∈ db.cache, s.key ≠ key t → s ∈ (localStages cfg env t cert ocsp db).cache) ∧
      (∀ s ∈ db.cache, s.key = key t →
        (∃ q ∈ (localStages cfg env t cert ocsp db).cache, q.key = s.key ∧
          (q.info = s.info ∨ q.info = (localStages cfg env t cert ocsp db).resp.info)) ∨
        ¬ Fresh cfg.lifetime env.now s) := by
    unfold localStages
    split
    · exact hid _
    · dsimp only
      split
      · refine ⟨fun s hs => Or.inl (cacheStage_rows hs), ?_, ?_⟩
        · intro s hs hk
          rcases cacheStage_keeps (cfg := cfg) (env := env) (t := t) hs hu.2 with
            ⟨q, hq, _, _, he⟩ | ⟨h, _⟩
          · rw [← he hk]; exact hq
          · exact absurd h hk
        · intro s hs hk
          rcases cacheStage_keeps (cfg := cfg) (env := env) (t := t) hs hu.2 with
            ⟨q, hq, h1, h2, _⟩ | ⟨_, h⟩
          · exact Or.inl ⟨q, hq, h1, Or.inl h2⟩
          · exact Or.inr h
      · obtain ⟨h1, h2, h3⟩ := hlast (cacheStage cfg env t db.cache).2
        refine ⟨?_, ?_, ?_⟩
        · intro s hs
          rcases h1 s hs with h | h
          · exact Or.inl (cacheStage_rows h)
          · exact Or.inr h
        · intro s hs hk
          rcases cacheStage_keeps (cfg := cfg) (env := env) (t := t) hs hu.2 with
            ⟨q, hq, h4, _, he⟩ | ⟨h, _⟩
          · have := he hk
            subst this
            exact h2 q hq hk
          · exact absurd h hk
        · intro s hs hk
          rcases cacheStage_keeps (cfg := cfg) (env := env) (t := t) hs hu.2 with
            ⟨q, hq, h4, h5, _⟩ | ⟨_, h⟩
          · obtain ⟨p, hp, h6, h7⟩ := h3 q hq (h4.trans hk)
            refine Or.inl ⟨p, hp, h6.trans h4, ?_⟩
            rcases h7 with h7 | h7
            · subst h7; exact Or.inl h5
            · exact Or.inr h7
          · exact Or.inr h
  unfold validate
  split
  · exact hid _
  · split
    · split
      · exact hid _
      · exact hloc
    · exact hloc

example : UniqueKeys exDb := by unfold UniqueKeys; decide

/-- C28 is violated: an offline attempt (local authorization offline not permitted) replaces the
accepting answer of the CSMS in the cache by the station's own Unknown. -/
theorem C28_violated :
    ∃ (cfg : Config) (env : Env) (t : Token) (db : Db) (r : Row),
      r ∈ db.cache ∧ r.key = key t ∧ r.info.status = .accepted ∧ Fresh cfg.lifetime env.now r ∧
      env.online = false ∧ (validate cfg env t none none db).sent = [] ∧
      ∀ q ∈ (validate cfg env t none none db).cache, q.key = key t → q.info.status = .unknown := by
  refine ⟨{ exCfg with localAuthorizeOffline := false }, exEnv false none, exTok, exDb,
    ⟨key exTok, yes, 90000⟩, by decide, by decide, by decide, ⟨?_, ?_⟩, by decide, by decide, by decide⟩
  · intro s hs; simp [exCfg] at hs; subst hs; decide
  · intro e he; simp [yes, Info.only] at he

/-- The same while online: the CSMS does not answer in time and its accepting answer is lost. -/
theorem C28_timeout_violated :
    ∃ (cfg : Config) (env : Env) (t : Token) (db : Db) (r : Row),
      r ∈ db.cache ∧ r.key = key t ∧ r.info.status = .accepted ∧ Fresh cfg.lifetime env.now r ∧
      env.online = true ∧ (∀ q, env.csms q = none) ∧
      ∀ q ∈ (validate cfg env t none none db).cache, q.key = key t → q.info.status = .unknown := by
  refine ⟨{ exCfg with localPreAuthorize := false }, exEnv true none, exTok, exDb,
    ⟨key exTok, yes, 90000⟩, by decide, by decide, by decide, ⟨?_, ?_⟩, by decide, fun _ => rfl,
    by decide⟩
  · intro s hs; simp [exCfg] at hs; subst hs; decide
  · intro e he; simp [yes, Info.only] at he

/-- C28: when the CSMS does answer (and the token is neither a contract nor decided by the list), its
answer is what the cache holds for the token afterwards. -/
theorem C28_answer_stored (cfg : Config) (env : Env) (t : Token) (cert : Option Str)
    (ocsp : Option (List Nat)) (db : Db) (r : AuthReq) (a : Resp)
    (hm : ¬ HasType t eMAID) (on : cfg.cacheEnabled = true) (hw : env.cacheInsertFails = false)
    (hl : ∀ i, ¬ Listed db t i)
    (hs : r ∈ (validate cfg env t cert ocsp db).sent) (ha : env.csms r = some a) :
    (⟨key t, a.info, env.now⟩ : Row) ∈ (validate cfg env t cert ocsp db).cache ∧
    ∀ q ∈ (validate cfg env t cert ocsp db).cache, q.key = key t → q = ⟨key t, a.info, env.now⟩ := by
  have hm' : ¬ ciEq t.type eMAID = true := by unfold ciEq; simpa [HasType] using hm
  have hlist : listStage cfg env t cert ocsp db = none := by
    cases hs : listStage cfg env t cert ocsp db with
    | none => rfl
    | some p =>
      obtain ⟨_, _, _, i, hg, _⟩ := listStage_some hs
      exact absurd (listGet_mem hg) (hl i)
  have main : ∀ c, r ∈ (lastStage cfg env t cert ocsp c).sent →
      (lastStage cfg env t cert ocsp c).cache = cachePut c (key t) a.info env.now := by
    intro c hs
    unfold lastStage at hs ⊢
    split
    · rename_i h; rw [if_pos h] at hs; simp at hs
    · rename_i h; rw [if_neg h] at hs
      split
      · rename_i h2; rw [if_pos h2] at hs; simp at hs
      · rename_i h2
        rw [if_neg h2] at hs
        dsimp only at hs ⊢
        have hr := authorizeReq_token hs
        subst hr
        have : (authorizeReq env { token := t, cert := cert, ocsp := ocsp }).1.info = a.info := by
          unfold authorizeReq at hs ⊢
          split
          · rw [ha]; rfl
          · rename_i h3; rw [if_neg h3] at hs; simp at hs
        rw [this]
        unfold storeAnswer
        rw [on, hw]; rfl
  have : ∃ c, (validate cfg env t cert ocsp db).cache = cachePut c (key t) a.info env.now := by
    unfold validate at hs ⊢
    split
    · rename_i h; rw [if_pos h] at hs; simp at hs
    · rename_i h
      rw [if_neg h, if_neg hm'] at hs
      unfold localStages at hs ⊢
      rw [hlist] at hs ⊢
      dsimp only at hs ⊢
      split
      · rename_i i hi; rw [hi] at hs; simp at hs
      · rename_i hi; rw [hi] at hs
        exact ⟨_, main _ hs⟩
  obtain ⟨c, hc⟩ := this
  rw [hc]
  refine ⟨mem_cachePut.mpr (Or.inr rfl), ?_⟩
  intro q hq hk
  rcases mem_cachePut.mp hq with h | h
  · exact absurd hk h.2
  · exact h

example : (validate exCfg (exEnv true (some { info := no })) exTok none none {}).sent ≠ [] ∧
    (validate exCfg (exEnv true (some { info := no })) exTok none none {}).cache
      = [⟨key exTok, no, 100000⟩] := by decide

/-! ### Invariants and provenance over histories -/

/-- In every history from the empty tables there is at most one row per key, as C24 and C28 assume. -/
theorem C24_reachable_unique (ops : List Op) : UniqueKeys (run {} ops) := by
  have : ∀ db, UniqueKeys db → UniqueKeys (run db ops) := by
    induction ops with
    | nil => exact fun db h => h
    | cons o os ih => exact fun db h => ih _ (unique_step h o)
  exact this _ ⟨by simp, by simp⟩

/-- C24 over histories, cache: in every history from the empty tables, every row of the cache is
something the CSMS stated about a token of this key (in the answer to an Authorize request that was
really sent, or in a TransactionEvent response), or else the station's own Unknown. So whatever the
cache accepts, the CSMS accepted. -/
theorem C24_cache_provenance (ops : List Op) (s : Row) (h : s ∈ (run {} ops).cache) :
    s.info = .only .unknown ∨
    ∃ t i, (t, i) ∈ saidAll {} ops ∧ key t = s.key ∧ i = s.info := by
  have gen : ∀ (ops : List Op) (db : Db) (S : List (Token × Info)), (∀ q ∈ db.cache, Stated S q) →
      ∀ q ∈ (run db ops).cache, Stated (S ++ saidAll db ops) q := by
    intro ops
    induction ops with
    | nil => intro db S hS q hq; simpa [saidAll] using hS q hq
    | cons o os ih =>
      intro db S hS q hq
      have h1 : ∀ p ∈ (step db o).cache, Stated (S ++ said db o) p := by
        intro p hp
        rcases step_stated hp with ⟨x, hx, hk, hi⟩ | hst
        · rcases hS x hx with h | ⟨y, hy, h1, h2⟩
          · exact Or.inl (by rw [← hi]; exact h)
          · exact Or.inr ⟨y, List.mem_append_left _ hy, h1.trans hk, h2.trans hi⟩
        · rcases hst with h | ⟨y, hy, h1, h2⟩
          · exact Or.inl h
          · exact Or.inr ⟨y, List.mem_append_right _ hy, h1, h2⟩
      have := ih (step db o) (S ++ said db o) h1 q hq
      simpa [saidAll, List.append_assoc] using this
  rcases gen ops {} [] (by simp) s h with h | ⟨p, hp, h1, h2⟩
  · exact Or.inl h
  · exact Or.inr ⟨p.1, p.2, by simpa using hp, h1, h2⟩

def exOps : List Op :=
  [.validate exCfg (exEnv true (some { info := yes })) exTok none none,
   .validate exCfg (exEnv true none) exTok2 none none]

/-- The history caches one answer of the CSMS and one Unknown of the station. -/
example : (run {} exOps).cache = [⟨key exTok, yes, 100000⟩, ⟨key exTok2, .only .unknown, 100000⟩] ∧
    saidAll {} exOps = [(exTok, yes)] := by decide

/-! ## C60: contract certificates and the CSMS -/

/-- C60. While the station is online, an eMAID token presented with a contract certificate and without
OCSP data is treated as follows. The certificate itself is sent to the CSMS exactly if central validation
is allowed and the certificate cannot be checked by OCSP (no trusted root, or no OCSP data to be had).
If it cannot be checked by OCSP and central validation is not allowed, nothing is sent and the answer is
Invalid. Otherwise the OCSP data alone are sent. -/
theorem C60_certificate_forwarding (cfg : Config) (env : Env) (t : Token) (c : Str) (db : Db)
    (hx : ¬ Exempt cfg t) (ht : HasType t eMAID) (hon : env.online = true)
    (hreq : env.onlineAtRequest = true) :
    let o := validate cfg env t (some c) none db
    let unchecked := env.verify = .issuerNotFound ∨ env.moOcsp = []
    (o.sent = [{ token := t, cert := some c }] ↔ cfg.centralContract = true ∧ unchecked) ∧
    (unchecked → cfg.centralContract = false → o.sent = [] ∧ o.resp.info.status = .invalid) ∧
    (¬ unchecked → o.sent = [{ token := t, ocsp := some env.moOcsp }]) := by
  have hm : ciEq t.type eMAID = true := by unfold ciEq; simpa [HasType] using ht
  have hv : validate cfg env t (some c) none db =
      ⟨(emaidOnline cfg env t c).1, (emaidOnline cfg env t c).2, db.cache⟩ := by
    unfold validate emaid
    rw [if_neg (fun he => hx ((exempt_iff cfg t).mp he)), if_pos hm]
    simp [hon]
  dsimp only
  rw [hv]
  unfold emaidOnline centralValidation authorizeReq
  by_cases h1 : env.verify = .issuerNotFound
  · by_cases h3 : cfg.centralContract = true
    · simp [h1, h3, hreq]
    · simp [h1, h3, Info.only]
  · by_cases h2 : env.moOcsp = []
    · by_cases h3 : cfg.centralContract = true
      · simp [h1, h2, h3, hreq]
      · simp [h1, h2, h3, Info.only]
    · simp [h1, h2, hreq]

/-- C60. Whatever the token and the arguments: while the station is online, a certificate leaves the
station for an eMAID token only if central validation is allowed. -/
theorem C60_never_unallowed (cfg : Config) (env : Env) (t : Token) (cert : Option Str)
    (ocsp : Option (List Nat)) (db : Db) (ht : HasType t eMAID) (hon : env.online = true) (r : AuthReq)
    (hr : r ∈ (validate cfg env t cert ocsp db).sent) (hc : r.cert ≠ none) :
    cfg.centralContract = true := by
  have hm : ciEq t.type eMAID = true := by unfold ciEq; simpa [HasType] using ht
  have a1 : ∀ q : AuthReq, r ∈ (authorizeReq env q).2 → r = q := by
    intro q hq
    unfold authorizeReq at hq
    split at hq
    · simpa using hq
    · cases hq
  unfold validate emaid at hr
  split at hr
  · cases hr
  · by_cases ho : ocsp.isSome = true
    · simp only [hon, ho, Bool.and_self, if_true] at hr
      rw [a1 _ hr] at hc
      exact absurd rfl hc
    · simp only [hon, ho, Bool.and_false, Bool.false_eq_true, if_false, if_true] at hr
      cases cert with
      | none => cases hr
      | some c =>
        dsimp only at hr
        unfold emaidOnline at hr
        have cv : r ∈ (centralValidation cfg env t c).2 → cfg.centralContract = true := by
          intro h
          unfold centralValidation at h
          split at h
          · assumption
          · cases h
        split at hr
        · exact cv hr
        · split at hr
          · exact cv hr
          · rw [a1 _ hr] at hc
            exact absurd rfl hc

/-- Online with an unknown root: the certificate is sent if that is allowed, and refused otherwise. -/
def exContract (b : Bool) : Outcome :=
  validate { exCfg with centralContract := b } { exEnv true (some { info := yes }) with verify := .issuerNotFound }
    ⟨eMAID, ['x']⟩ (some ['c']) none {}

example : (exContract true).sent = [{ token := ⟨eMAID, ['x']⟩, cert := some ['c'] }] ∧
    (exContract false).sent = [] ∧ (exContract false).resp.info.status = .invalid := by decide

end Verif.Auth
