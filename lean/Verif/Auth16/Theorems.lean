import Verif.Auth16.Lemmas
/-!
Properties C109, C110 and C113: authorization of idTags and contracts, and the authorization cache, of
OCPP 1.6.
-/
set_option linter.constructorNameAsVariable false
namespace Verif.Auth16

/-! ### Examples -/

def exCfg : Config :=
  { preAuthorize := true, authorizeOffline := true, listEnabled := true, cache := some true,
    offlineUnknown := some false, pnc := true, contractOffline := true }

def exEnv (online : Bool) (a : Answer) : Env :=
  { ws := some online, nowList := 100, nowFirst := 101, nowCheck := 102, nowSecond := 103,
    answer := fun _ => a }

def yes : Info := { status := .accepted }
def yesUntil (t : Int) : Info := { status := .accepted, expiry := some t }
def no : Info := { status := .blocked }

def tagA : Str := ['a', '1']
def tagB : Str := ['b', '2']

def exDb : Db := { list := [(tagA, no)], cache := [(tagB, yesUntil 500)], version := some 3 }

/-! ### C109 -/

theorem deliver_info {cfg : Config} {env : Env} {i j : Info} (h : deliver cfg env i = .info j) :
    i = j := by
  unfold deliver at h
  split at h
  · simp at h
  · injection h

theorem validate_spec {env : Env} {db db' : Db} {k : Str} (h : validateCache env db k = (some true, db')) :
    db' = db := by
  unfold validateCache at h
  cases hr : readRow db.cache k env.nowFirst (env.fails .firstRead) (env.fails .firstWrite) with
  | mk r c =>
    rw [hr] at h
    cases r with
    | error => simp at h
    | absent => simp at h
    | found i =>
      simp only at h
      split at h
      · simp at h
      · rename_i ha
        have ha : i.status = .accepted := by simpa using ha
        obtain ⟨_, _, hc⟩ := readRow_accepted hr ha
        subst hc
        cases he : i.expiry with
        | none => simp only [he, Prod.mk.injEq, true_and] at h; exact h.symm
        | some e =>
          simp only [he] at h
          split at h
          · simp at h
          · simp only [Prod.mk.injEq, true_and] at h; exact h.symm

theorem validate_list {env : Env} {db : Db} {k : Str} : (validateCache env db k).2.list = db.list := by
  unfold validateCache
  cases hr : readRow db.cache k env.nowFirst (env.fails .firstRead) (env.fails .firstWrite) with
  | mk r c =>
    cases r with
    | error => rfl
    | absent => rfl
    | found i =>
      simp only
      split
      · rfl
      · split
        · rfl
        · split <;> rfl

theorem cacheStage_accepts {cfg : Config} {env : Env} {k : Str} {db db' : Db} {i : Info}
    (h : cacheStage cfg env k db = (some (.info i), db')) (ha : i.status = .accepted) :
    cfg.cache.isSome = true ∧ (k, i) ∈ db.cache ∧ Fresh i env.nowSecond := by
  unfold cacheStage at h
  split at h
  · rename_i hc
    cases hv : validateCache env db k with
    | mk v d =>
      rw [hv] at h
      cases v with
      | none => simp at h
      | some b =>
        cases b with
        | false => simp at h
        | true =>
          have hd := validate_spec hv
          subst hd
          simp only at h
          cases hr : readRow d.cache k env.nowSecond (env.fails .secondRead) (env.fails .secondWrite) with
          | mk r c =>
            rw [hr] at h
            cases r with
            | error => simp at h
            | absent => simp at h
            | found j =>
              simp only [Prod.mk.injEq, Option.some.injEq] at h
              have hj := deliver_info h.1
              subst hj
              obtain ⟨g1, g2, _⟩ := readRow_accepted hr ha
              exact ⟨hc, g1, g2⟩
  · simp at h

/-- What the first two stages give. -/
theorem localStage_accepts {cfg : Config} {env : Env} {k : Str} {db db' : Db} {i : Info}
    (h : localStage cfg env k db = (some (.info i), db')) (ha : i.status = .accepted) :
    Reason cfg env k db [] := by
  unfold localStage at h
  split at h
  · rename_i hl
    have hl := (localAllowed_iff cfg env).mp hl
    unfold listStage at h
    split at h
    · rename_i hon
      cases hr : readRow db.list k env.nowList (env.fails .listRead) (env.fails .listWrite) with
      | mk r l =>
        rw [hr] at h
        have hcache : ∀ l', cacheStage cfg env k { db with list := l' } = (some (.info i), db') →
            (∀ j t', readRow db.list k env.nowList (env.fails .listRead) (env.fails .listWrite) ≠
              (.found j, t')) → Reason cfg env k db [] := by
          intro l' h hr
          obtain ⟨g1, g2, g3⟩ := cacheStage_accepts h ha
          refine .cache i g1 hl g2 ha g3 ?_
          intro _ f1 f2
          rw [f1] at hr
          exact readRow_not_found f2 hr
        cases r with
        | error => exact hcache _ h (by intro j t'; rw [hr]; simp)
        | absent => exact hcache _ h (by intro j t'; rw [hr]; simp)
        | found j =>
          simp only [Prod.mk.injEq, Option.some.injEq] at h
          have hj := deliver_info h.1
          subst hj
          obtain ⟨g1, g2, _⟩ := readRow_accepted hr ha
          exact .list j hon hl g1 ha g2
    · rename_i hon
      obtain ⟨g1, g2, g3⟩ := cacheStage_accepts h ha
      exact .cache i g1 hl g2 ha g3 (by intro h; exact absurd h hon)
  · simp at h

theorem localStage_none {cfg : Config} {env : Env} {k : Str} {db db' : Db}
    (h : localStage cfg env k db = (none, db')) (hp : LocalPermitted cfg env)
    (hon : cfg.listEnabled = true) (h1 : env.fails .listRead = false) (h2 : env.fails .listWrite = false) :
    ∀ i, (k, i) ∉ db.list := by
  unfold localStage at h
  rw [if_pos ((localAllowed_iff cfg env).mpr hp)] at h
  unfold listStage at h
  rw [if_pos hon] at h
  have : ∀ i t', readRow db.list k env.nowList false (env.fails .listWrite) ≠ (.found i, t') := by
    intro i t' hr
    rw [h1, hr] at h
    simp at h
  exact readRow_not_found h2 this

/-- C109, the part that holds: `authorize_id_token` answers Accepted only if the CSMS accepted the tag in
this very call, or the local list, or the cache, may be used and holds an accepting row for it whose
expiry date has not passed, or the station is offline and accepts unknown tags. Missing (see the
violations below): the cache must be enabled, not merely configured; tags with a row that does not
accept them must not count as unknown. -/
theorem C109_partial (cfg : Config) (env : Env) (k : Str) (onlyLocal : Bool) (db : Db) (i : Info)
    (h : (authorize cfg env k onlyLocal db).outcome = .info i) (ha : i.status = .accepted) :
    Reason cfg env k db (authorize cfg env k onlyLocal db).sent := by
  unfold authorize at h ⊢
  cases hl : localStage cfg env k db with
  | mk o d =>
    rw [hl] at h
    cases o with
    | some o =>
      simp only at h ⊢
      subst h
      exact localStage_accepts hl ha
    | none =>
      simp only at h ⊢
      cases onlyLocal with
      | true =>
        simp only [if_true, Outcome.info.injEq] at h
        subst h
        simp [onlyStatus] at ha
      | false =>
        simp only [Bool.false_eq_true, if_false] at h ⊢
        unfold remote at h ⊢
        cases hans : env.answer k with
        | conf j =>
          simp only [hans] at h ⊢
          split at h
          · simp only [Outcome.info.injEq] at h
            subst h
            simp [onlyStatus] at ha
          · rename_i hs
            simp only [Outcome.info.injEq] at h
            subst h
            rw [if_neg hs]
            exact .csms j rfl hans ha
        | offline =>
          simp only [hans] at h ⊢
          split at h
          · rename_i hu
            rw [if_pos hu]
            refine .offline rfl hans ?_ ?_
            · cases hc : cfg.offlineUnknown with
              | none => simp [hc] at hu
              | some b => simp only [hc, Option.getD_some] at hu; rw [hu]
            · exact fun hp hon h1 h2 => localStage_none hl hp hon h1 h2
          · simp only [Outcome.info.injEq] at h
            subst h
            simp [onlyStatus] at ha
        | malformed => simp only [hans, Outcome.info.injEq] at h; subst h; simp [onlyStatus] at ha
        | timeout => simp only [hans, Outcome.info.injEq] at h; subst h; simp [onlyStatus] at ha
        | callError => simp only [hans, Outcome.info.injEq] at h; subst h; simp [onlyStatus] at ha

/-- C109 in full, for a cache that is not switched off and a station that accepts unknown tags offline
only when its tables do not know them. -/
theorem C109_sound_partial (cfg : Config) (env : Env) (k : Str) (onlyLocal : Bool) (db : Db) (i : Info)
    (h : (authorize cfg env k onlyLocal db).outcome = .info i) (ha : i.status = .accepted)
    (hc : cfg.cache ≠ some false)
    (hu : cfg.offlineUnknown = some true → ∀ j, (k, j) ∉ db.list ∧ (k, j) ∉ db.cache) :
    Justified cfg env k db (authorize cfg env k onlyLocal db).sent := by
  rcases C109_partial cfg env k onlyLocal db i h ha with ⟨i, h1, h2, h3⟩ | ⟨i, h1, h2, h3, h4, h5⟩ |
    ⟨i, h1, h2, h3, h4, h5, h6⟩ | ⟨_, h1, h2, h3⟩
  · exact .csms i (by rw [h1]; simp) h2 h3
  · exact .list i h1 h2 h3 h4 h5
  · refine .cache i ?_ h2 h3 h4 h5
    cases hcc : cfg.cache with
    | none => simp [hcc] at h1
    | some b => cases b with
      | true => rfl
      | false => exact absurd hcc hc
  · exact .offline h1 h2 (fun j => (hu h2 j).1) (fun j => (hu h2 j).2)

/-- A case for C109: accepted by the cache, by the CSMS, and refused by the list. -/
example :
    (authorize exCfg (exEnv false .offline) tagB false exDb).outcome = .info (yesUntil 500) ∧
    (authorize exCfg (exEnv true (.conf yes)) ['c'] false exDb).outcome = .info yes ∧
    (authorize exCfg (exEnv true (.conf yes)) tagA false exDb).outcome = .info no ∧
    exCfg.cache ≠ some false := by decide

/-- C109 is violated: with AuthorizationCacheEnabled = false a tag is accepted because of its row in the
cache, offline and without any other reason. -/
theorem C109_disabled_cache_violated :
    ∃ (cfg : Config) (env : Env) (k : Str) (db : Db) (i : Info),
      cfg.cache = some false ∧ (authorize cfg env k false db).outcome = .info i ∧ i.status = .accepted ∧
      ¬ Justified cfg env k db (authorize cfg env k false db).sent := by
  refine ⟨{ exCfg with cache := some false }, exEnv false .offline, tagB, exDb, yesUntil 500, rfl,
    by decide, by decide, ?_⟩
  rintro (⟨i, h1, h2, h3⟩ | ⟨i, h1, h2, h3, h4, h5⟩ | ⟨i, h1, h2, h3, h4, h5⟩ | ⟨h1, h2, h3⟩)
  · simp [exEnv] at h2
  · simp [exDb, tagA, tagB] at h3
  · simp at h1
  · simp [exCfg] at h2

/-- C109 is violated: a tag the CSMS has blocked, as the cache knows, is accepted as unknown when the
station is offline. -/
theorem C109_blocked_offline_violated :
    ∃ (cfg : Config) (env : Env) (k : Str) (db : Db) (i : Info),
      cfg.cache = some true ∧ LocalPermitted cfg env ∧ (k, no) ∈ db.cache ∧
      (authorize cfg env k false db).outcome = .info i ∧ i.status = .accepted ∧
      ¬ Justified cfg env k db (authorize cfg env k false db).sent := by
  refine ⟨{ exCfg with offlineUnknown := some true }, exEnv false .offline, tagA,
    { cache := [(tagA, no)] }, yes, rfl, .inr ⟨rfl, by simp [exEnv]⟩, by simp, by decide, by decide, ?_⟩
  rintro (⟨i, h1, h2, h3⟩ | ⟨i, h1, h2, h3, h4, h5⟩ | ⟨i, h1, h2, h3, h4, h5⟩ | ⟨h1, h2, h3, h4⟩)
  · simp [exEnv] at h2
  · simp at h3
  · simp only [List.mem_singleton, Prod.mk.injEq, true_and] at h3
    subst h3
    simp [no] at h4
  · exact h4 no (by simp)

/-- C109 is violated: a tag blocked in the local list is accepted as unknown when the station is offline
and must not authorize locally. -/
theorem C109_blocked_in_list_violated :
    ∃ (cfg : Config) (env : Env) (k : Str) (db : Db) (i : Info),
      cfg.listEnabled = true ∧ (k, no) ∈ db.list ∧
      (authorize cfg env k false db).outcome = .info i ∧ i.status = .accepted ∧
      ¬ Justified cfg env k db (authorize cfg env k false db).sent := by
  refine ⟨{ exCfg with offlineUnknown := some true, authorizeOffline := false }, exEnv false .offline,
    tagA, exDb, yes, rfl, by decide, by decide, by decide, ?_⟩
  rintro (⟨i, h1, h2, h3⟩ | ⟨i, h1, h2, h3, h4, h5⟩ | ⟨i, h1, h2, h3, h4, h5⟩ | ⟨h1, h2, h3, h4⟩)
  · simp [exEnv] at h2
  · simp [LocalPermitted, exEnv] at h2
  · simp [LocalPermitted, exEnv] at h2
  · exact h3 no (by decide)

/-- C109 is violated: idTags are case-insensitive, but the tables compare them byte by byte. The list
blocks the tag `a1`; the same tag written `A1` is accepted from the cache. -/
theorem C109_case_violated :
    ∃ (cfg : Config) (env : Env) (k k' : Str) (db : Db) (i : Info),
      lower k = lower k' ∧ cfg.listEnabled = true ∧ LocalPermitted cfg env ∧ (k, no) ∈ db.list ∧
      (authorize cfg env k' false db).outcome = .info i ∧ i.status = .accepted :=
  ⟨exCfg, exEnv false .offline, tagA, ['A', '1'],
    { list := [(tagA, no)], cache := [(['A', '1'], yes)] }, yes, by decide, rfl,
    .inr ⟨rfl, by simp [exEnv]⟩, by decide, by decide, by decide⟩

/-- A row of the local list decides before the cache and the CSMS: if the list may be used, holds a row
for the tag and no statement fails, that row is the result, as Expired if its expiry date has passed,
and nothing is sent. -/
theorem C109_list_decides (cfg : Config) (env : Env) (k : Str) (onlyLocal : Bool) (db : Db) (i : Info)
    (hn : UniqueKeys db) (hon : cfg.listEnabled = true) (hp : LocalPermitted cfg env)
    (he : (k, i) ∈ db.list) (hf : ∀ c, env.fails c = false)
    (hw : env.ws ≠ none ∨ cfg.customDisplay = false) :
    (authorize cfg env k onlyLocal db).outcome = .info (i.at env.nowList) ∧
    (authorize cfg env k onlyLocal db).sent = [] := by
  have hg := get_of_mem hn.1 he
  have hr := readRow_at (now := env.nowList) hg
  unfold authorize localStage
  rw [if_pos ((localAllowed_iff cfg env).mpr hp)]
  unfold listStage
  rw [if_pos hon, hf, hf]
  cases hrr : readRow db.list k env.nowList false false with
  | mk r l =>
    rw [hrr] at hr
    simp only at hr
    subst hr
    simp only
    refine ⟨?_, trivial⟩
    unfold deliver
    rw [if_neg]
    rintro ⟨_, h2, h3⟩
    rcases hw with hw | hw
    · exact hw h3
    · rw [hw] at h2; simp at h2

example : UniqueKeys exDb ∧ exCfg.listEnabled = true ∧ LocalPermitted exCfg (exEnv true (.conf yes)) ∧
    (tagA, no) ∈ exDb.list :=
  ⟨⟨by decide, by decide⟩, rfl, .inl ⟨rfl, rfl⟩, by decide⟩

/-- An accepting row of the cache that has not expired decides when the list does not hold the tag: it is
the result and nothing is sent. -/
theorem C109_cache_decides (cfg : Config) (env : Env) (k : Str) (onlyLocal : Bool) (db : Db) (i : Info)
    (hn : UniqueKeys db) (hon : cfg.cache = some true) (hp : LocalPermitted cfg env)
    (hl : cfg.listEnabled = false ∨ ∀ j, (k, j) ∉ db.list)
    (he : (k, i) ∈ db.cache) (ha : i.status = .accepted) (hf : ∀ c, env.fails c = false)
    (f1 : Fresh i env.nowFirst) (f2 : Fresh i env.nowCheck) (f3 : Fresh i env.nowSecond)
    (hw : env.ws ≠ none ∨ cfg.customDisplay = false) :
    (authorize cfg env k onlyLocal db).outcome = .info i ∧
    (authorize cfg env k onlyLocal db).sent = [] ∧ (authorize cfg env k onlyLocal db).db = db := by
  have hg := get_of_mem hn.2 he
  have hread : ∀ now, Fresh i now → readRow db.cache k now false false = (.found i, db.cache) := by
    intro now hfr
    unfold readRow
    simp only [Bool.false_eq_true, if_false, hg]
    cases hex : i.expiry with
    | none => rfl
    | some e =>
      simp only
      have := hfr e hex
      rw [if_neg]
      rintro ⟨_, h⟩
      omega
  have hval : validateCache env db k = (some true, db) := by
    unfold validateCache
    rw [hf, hf, hread _ f1]
    simp only [ha, ne_eq, not_true_eq_false, if_false]
    cases hex : i.expiry with
    | none => rfl
    | some e =>
      simp only
      have := f2 e hex
      rw [if_neg (by omega)]
  have hdel : deliver cfg env i = .info i := by
    unfold deliver
    rw [if_neg]
    rintro ⟨_, h2, h3⟩
    rcases hw with hw | hw
    · exact hw h3
    · rw [hw] at h2; simp at h2
  have hst : cacheStage cfg env k db = (some (.info i), db) := by
    unfold cacheStage
    simp only [hon, Option.isSome_some, if_true, hval, hf, hread _ f3, hdel]
  have hloc : localStage cfg env k db = (some (.info i), db) := by
    unfold localStage
    rw [if_pos ((localAllowed_iff cfg env).mpr hp)]
    unfold listStage
    rcases hl with hl | hl
    · simp [hl, hst]
    · have : readRow db.list k env.nowList false false = (.absent, db.list) := by
        unfold readRow
        simp [get_none.mpr hl]
      simp only [hf, this, hst]
      simp
  unfold authorize
  rw [hloc]
  exact ⟨rfl, rfl, rfl⟩

example : Fresh (yesUntil 500) 103 ∧ (tagB, yesUntil 500) ∈ exDb.cache ∧ ∀ j, (tagB, j) ∉ exDb.list := by
  refine ⟨?_, by decide, ?_⟩
  · intro e h; simp [yesUntil] at h; omega
  · simp [exDb, tagA, tagB]

/-- A tag that neither table holds, or when the tables may not be used, is sent to the CSMS, once; what
it answers is the result and is stored in the cache; no answer means Invalid. -/
theorem C109_asked (cfg : Config) (env : Env) (k : Str) (db : Db) (hf : ∀ c, env.fails c = false)
    (hu : ¬ LocalPermitted cfg env ∨ ((∀ i, (k, i) ∉ db.list) ∧ ∀ i, (k, i) ∉ db.cache)) :
    (authorize cfg env k false db).sent = [k] ∧
    (authorize cfg env k false db).outcome = .info (match env.answer k with
      | .conf i => i
      | .offline => if cfg.offlineUnknown = some true then { status := .accepted }
          else { status := .invalid }
      | _ => { status := .invalid }) ∧
    (∀ i, env.answer k = .conf i → (k, i) ∈ (authorize cfg env k false db).db.cache) := by
  have hl : localStage cfg env k db = (none, db) := by
    unfold localStage
    rcases hu with hu | ⟨h1, h2⟩
    · rw [if_neg]
      rw [localAllowed_iff]
      exact hu
    · have hlist : readRow db.list k env.nowList false false = (.absent, db.list) := by
        unfold readRow
        simp [get_none.mpr h1]
      have hcache : readRow db.cache k env.nowFirst false false = (.absent, db.cache) := by
        unfold readRow
        simp [get_none.mpr h2]
      have hst : cacheStage cfg env k db = (none, db) := by
        unfold cacheStage validateCache
        simp [hf, hcache]
      unfold listStage
      simp only [hf, hlist, hst]
      simp
  unfold authorize
  rw [hl]
  simp only [Bool.false_eq_true, if_false]
  unfold remote
  rw [hf]
  cases hans : env.answer k with
  | conf i =>
    refine ⟨rfl, rfl, ?_⟩
    intro j hj
    injection hj with hj
    subst hj
    simp [put]
  | offline =>
    simp only [onlyStatus]
    cases hc : cfg.offlineUnknown with
    | none => simp
    | some b => cases b <;> simp
  | malformed => simp [onlyStatus]
  | timeout => simp [onlyStatus]
  | callError => simp [onlyStatus]

example : ¬ LocalPermitted { exCfg with preAuthorize := false } (exEnv true (.conf yes)) := by
  simp [LocalPermitted, exEnv]

/-- With local authorization only, nothing is ever sent. -/
theorem C109_local_only (cfg : Config) (env : Env) (k : Str) (db : Db) :
    (authorize cfg env k true db).sent = [] := by
  unfold authorize
  cases localStage cfg env k db with
  | mk o d => cases o <;> rfl

theorem deliver_defined {cfg : Config} {env : Env} {i : Info}
    (hw : env.ws ≠ none ∨ cfg.customDisplay = false) : deliver cfg env i ≠ .undefined := by
  unfold deliver
  rw [if_neg]
  · simp
  · rintro ⟨_, h2, h3⟩
    rcases hw with hw | hw
    · exact hw h3
    · rw [hw] at h2; simp at h2

theorem cacheStage_defined {cfg : Config} {env : Env} {k : Str} {db : Db}
    (hw : env.ws ≠ none ∨ cfg.customDisplay = false)
    (h1 : env.fails .firstRead = false) (h2 : env.fails .firstWrite = false) :
    (cacheStage cfg env k db).1 ≠ some .undefined := by
  unfold cacheStage
  split
  · have hv : (validateCache env db k).1 ≠ none := by
      unfold validateCache
      rw [h1, h2]
      cases hr : readRow db.cache k env.nowFirst false false with
      | mk r c =>
        cases r with
        | error =>
          exfalso
          unfold readRow at hr
          simp only [Bool.false_eq_true, if_false] at hr
          cases hg : get db.cache k with
          | none => simp [hg] at hr
          | some j =>
            simp only [hg] at hr
            cases he : j.expiry with
            | none => simp [he] at hr
            | some e =>
              simp only [he] at hr
              split at hr <;> simp at hr
        | absent => simp
        | found i =>
          simp only
          split
          · simp
          · split
            · simp
            · split <;> simp
    cases hvv : validateCache env db k with
    | mk v d =>
      rw [hvv] at hv
      cases v with
      | none => exact absurd rfl hv
      | some b =>
        cases b with
        | false => simp
        | true =>
          simp only
          cases hr : readRow d.cache k env.nowSecond (env.fails .secondRead) (env.fails .secondWrite) with
          | mk r c =>
            cases r with
            | error => simp
            | absent => simp
            | found i => simpa using deliver_defined hw
  · simp

/-- Authorization has no undefined behaviour as long as the cache can be read (and rows in it marked as
expired) and the websocket exists or no tariff is displayed. -/
theorem C109_defined_partial (cfg : Config) (env : Env) (k : Str) (onlyLocal : Bool) (db : Db)
    (hw : env.ws ≠ none ∨ cfg.customDisplay = false)
    (h1 : env.fails .firstRead = false) (h2 : env.fails .firstWrite = false) :
    (authorize cfg env k onlyLocal db).outcome ≠ .undefined := by
  have hl : (localStage cfg env k db).1 ≠ some .undefined := by
    unfold localStage
    split
    · unfold listStage
      split
      · cases hr : readRow db.list k env.nowList (env.fails .listRead) (env.fails .listWrite) with
        | mk r l =>
          cases r with
          | error => exact cacheStage_defined hw h1 h2
          | absent => exact cacheStage_defined hw h1 h2
          | found i => simpa using deliver_defined hw
      · exact cacheStage_defined hw h1 h2
    · simp
  unfold authorize
  cases hll : localStage cfg env k db with
  | mk o d =>
    rw [hll] at hl
    cases o with
    | some o => simpa using hl
    | none =>
      simp only
      cases onlyLocal with
      | true => simp
      | false =>
        simp only [Bool.false_eq_true, if_false]
        unfold remote
        split
        · split <;> simp
        · split <;> simp
        · simp

example : (exEnv true .timeout).ws ≠ none ∧ (exEnv true .timeout).fails .firstRead = false := by
  decide

/-- Without these assumptions authorization has undefined behaviour: when the cache cannot be read, the
function that looks it up ends without a return value. -/
theorem C109_database_error_violated :
    ∃ (cfg : Config) (env : Env) (k : Str) (db : Db), env.ws = some true ∧
      (authorize cfg env k false db).outcome = .undefined :=
  ⟨exCfg, { exEnv true (.conf yes) with fails := fun c => c == .firstRead }, tagB, exDb, rfl, by decide⟩

/-- Before the websocket is created, a tag accepted by the local list makes the station dereference a
null pointer when tariffs are displayed. -/
theorem C109_no_websocket_violated :
    ∃ (cfg : Config) (env : Env) (k : Str) (db : Db), (∀ c, env.fails c = false) ∧
      (authorize cfg env k false db).outcome = .undefined :=
  ⟨{ exCfg with customDisplay := true }, { exEnv true (.conf yes) with ws := none }, tagB, exDb,
    fun _ => rfl, by decide⟩

/-! ### C110: the cache -/

theorem validate_aged {env : Env} {db : Db} {k : Str} {times : List Int}
    (h1 : env.nowFirst ∈ times) (h2 : env.nowCheck ∈ times) :
    Aged times db.cache (validateCache env db k).2.cache := by
  have ha := readRow_aged times db.cache k env.nowFirst (env.fails .firstRead) (env.fails .firstWrite) h1
  unfold validateCache
  cases hr : readRow db.cache k env.nowFirst (env.fails .firstRead) (env.fails .firstWrite) with
  | mk r c =>
    rw [hr] at ha
    cases r with
    | error => exact ha
    | absent => exact ha
    | found i =>
      simp only
      split
      · exact ha
      · rename_i hacc
        have hacc : i.status = .accepted := by simpa using hacc
        cases he : i.expiry with
        | none => exact ha
        | some e =>
          simp only
          split
          · rename_i hlt
            split
            · exact ha
            · refine ha.trans ?_
              obtain ⟨_, _, hcc⟩ := readRow_accepted hr hacc
              subst hcc
              have hg : get db.cache k = some i := by
                unfold readRow at hr
                split at hr
                · simp at hr
                · cases hgg : get db.cache k with
                  | none => simp [hgg] at hr
                  | some j =>
                    simp only [hgg] at hr
                    cases hje : j.expiry with
                    | none =>
                      simp only [hje, Prod.mk.injEq, Read.found.injEq] at hr
                      rw [hr.1]
                    | some ej =>
                      simp only [hje] at hr
                      split at hr
                      · split at hr
                        · simp at hr
                        · simp only [Prod.mk.injEq, Read.found.injEq] at hr
                          rw [← hr.1] at hacc
                          simp at hacc
                      · simp only [Prod.mk.injEq, Read.found.injEq] at hr
                        rw [hr.1]
              have := Aged.put (times := times) hg he h2 (by omega)
              rw [he] at this
              exact this
          · exact ha

theorem cacheStage_aged {cfg : Config} {env : Env} {db : Db} {k : Str} {times : List Int}
    (h1 : env.nowFirst ∈ times) (h2 : env.nowCheck ∈ times) (h3 : env.nowSecond ∈ times) :
    Aged times db.cache (cacheStage cfg env k db).2.cache := by
  have ha := validate_aged (db := db) (k := k) h1 h2
  unfold cacheStage
  split
  · cases hv : validateCache env db k with
    | mk v d =>
      rw [hv] at ha
      cases v with
      | none => exact ha
      | some b =>
        cases b with
        | false => exact ha
        | true =>
          simp only
          have hb := readRow_aged times d.cache k env.nowSecond (env.fails .secondRead)
            (env.fails .secondWrite) h3
          cases hr : readRow d.cache k env.nowSecond (env.fails .secondRead) (env.fails .secondWrite) with
          | mk r c =>
            rw [hr] at hb
            cases r with
            | error => exact ha.trans hb
            | absent => exact ha.trans hb
            | found i => exact ha.trans hb
  · exact .refl _ _

theorem localStage_aged {cfg : Config} {env : Env} {db : Db} {k : Str} {times : List Int}
    (h1 : env.nowFirst ∈ times) (h2 : env.nowCheck ∈ times) (h3 : env.nowSecond ∈ times) :
    Aged times db.cache (localStage cfg env k db).2.cache := by
  unfold localStage
  split
  · unfold listStage
    split
    · cases hr : readRow db.list k env.nowList (env.fails .listRead) (env.fails .listWrite) with
      | mk r l =>
        cases r with
        | error => exact cacheStage_aged (db := { db with list := l }) h1 h2 h3
        | absent => exact cacheStage_aged (db := { db with list := l }) h1 h2 h3
        | found i => exact .refl _ _
    · exact cacheStage_aged h1 h2 h3
  · exact .refl _ _

theorem agrees_mono {a b : List Int} (h : ∀ t ∈ a, t ∈ b) {x y : Option Info} (ha : Agrees a x y) :
    Agrees b x y := by
  cases x with
  | none => cases y with
    | none => trivial
    | some y => exact ha
  | some x => cases y with
    | none => exact ha
    | some y =>
      rcases ha with ha | ⟨h1, e, h2, t, h3, h4⟩
      · exact .inl ha
      · exact .inr ⟨h1, e, h2, t, h t h3, h4⟩

theorem agrees_aged {times : List Int} {c c' : Table} (h : Aged times c c') {x : Option Info} {k : Str}
    (ha : Agrees times x (get c k)) : Agrees times x (get c' k) := by
  rcases h k with h | ⟨i, e, t, g1, g2, g3, g4, g5⟩
  · rw [h]; exact ha
  · rw [g1] at ha
    rw [g2]
    cases x with
    | none => exact ha
    | some j =>
      rcases ha with ha | ⟨h1, e', h2, t', h3, h4⟩
      · subst ha
        exact .inr ⟨rfl, e, g3, t, g4, g5⟩
      · subst h1
        exact .inr ⟨rfl, e', h2, t', h3, h4⟩

/-- One step keeps the cache in agreement. -/
theorem step_agrees (times : List Int) (db : Db) (o : Op) (m : Str → Option Info) (hs : Stores o)
    (ht : ∀ t ∈ readings o, t ∈ times) (ha : ∀ k, Agrees times (m k) (get db.cache k)) (k : Str) :
    Agrees times ((events db o).foldl remember m k) (get (step db o).cache k) := by
  cases o with
  | authorize cfg env t onlyLocal =>
    have h1 : env.nowFirst ∈ times := ht _ (by simp [readings])
    have h2 : env.nowCheck ∈ times := ht _ (by simp [readings])
    have h3 : env.nowSecond ∈ times := ht _ (by simp [readings])
    have hl := localStage_aged (cfg := cfg) (env := env) (db := db) (k := t) h1 h2 h3
    simp only [Stores] at hs
    simp only [events, step, authorize]
    cases hll : localStage cfg env t db with
    | mk o d =>
      rw [hll] at hl
      cases o with
      | some o =>
        simp only [List.filterMap_nil, List.foldl_nil]
        exact agrees_aged hl (ha k)
      | none =>
        simp only
        cases onlyLocal with
        | true =>
          simp only [if_true, List.filterMap_nil, List.foldl_nil]
          exact agrees_aged hl (ha k)
        | false =>
          simp only [Bool.false_eq_true, if_false]
          unfold remote
          cases hans : env.answer t with
          | conf i =>
            simp only [hs, Bool.false_eq_true, if_false, List.filterMap_cons, hans, List.filterMap_nil,
              List.foldl_cons, List.foldl_nil, remember, get_put]
            by_cases hk : k = t
            · subst hk
              simp only [if_true]
              exact .inl rfl
            · simp only [hk, if_false]
              exact agrees_aged hl (ha k)
          | offline =>
            simp only
            split <;>
              (simp only [List.filterMap_cons, hans, List.filterMap_nil, List.foldl_nil]
               exact agrees_aged hl (ha k))
          | malformed =>
            simp only [List.filterMap_cons, hans, List.filterMap_nil, List.foldl_nil]
            exact agrees_aged hl (ha k)
          | timeout =>
            simp only [List.filterMap_cons, hans, List.filterMap_nil, List.foldl_nil]
            exact agrees_aged hl (ha k)
          | callError =>
            simp only [List.filterMap_cons, hans, List.filterMap_nil, List.foldl_nil]
            exact agrees_aged hl (ha k)
  | pnc cfg env p t =>
    have h1 : env.nowFirst ∈ times := ht _ (by simp [readings])
    have h2 : env.nowCheck ∈ times := ht _ (by simp [readings])
    have h3 : env.nowSecond ∈ times := ht _ (by simp [readings])
    have hl := localStage_aged (cfg := cfg) (env := env) (db := db) (k := t) h1 h2 h3
    have hauth : Aged times db.cache (authorize cfg env t true db).db.cache := by
      unfold authorize
      cases hll : localStage cfg env t db with
      | mk o d =>
        rw [hll] at hl
        cases o <;> exact hl
    have hp : Aged times db.cache (pncAuthorize cfg env p t db).db.cache := by
      unfold pncAuthorize
      split
      · exact .refl _ _
      · split
        · exact .refl _ _
        · split
          · exact .refl _ _
          · split
            · split
              · unfold pncOnline
                split
                · split <;> exact .refl _ _
                · split
                  · exact .refl _ _
                  · split <;> exact .refl _ _
              · unfold pncOffline
                split
                · split
                  · split
                    · unfold pncList
                      split <;> exact hauth
                    · exact .refl _ _
                  · exact .refl _ _
                  · exact .refl _ _
                · exact .refl _ _
            · exact .refl _ _
    simp only [events, step, List.foldl_nil]
    exact agrees_aged hp (ha k)
  | startConf t i ok =>
    simp only [Stores] at hs
    simp only [events, step, hs, if_true, List.foldl_cons, List.foldl_nil, remember, get_put]
    by_cases hk : k = t
    · simp only [hk, if_true]; exact .inl rfl
    · simp only [hk, if_false]; exact ha k
  | stopConf t i ok => exact absurd hs (by simp [Stores])
  | clearCache cfg ok =>
    simp only [events, step, clearCache]
    split
    · cases ok with
      | true => simp only [if_true, List.foldl_cons, List.foldl_nil, remember]; trivial
      | false => simpa using ha k
    · simpa using ha k
  | sendList cfg ok rf r =>
    simp only [events, step, List.foldl_nil]
    have : (afterList cfg ok rf db r).cache = db.cache := by
      unfold afterList applyAll
      generalize (sendList cfg ok rf db.version r).2 = ws
      induction ws generalizing db with
      | nil => rfl
      | cons w ws ih =>
        rw [List.foldl_cons, ih]
        · cases w <;> rfl
        · intro k; have := ha k; cases w <;> exact this
    rw [this]; exact ha k
  | sendListCrash n cfg ok rf r =>
    simp only [events, step, List.foldl_nil]
    have : (crashedList n cfg ok rf db r).cache = db.cache := by
      unfold crashedList applyAll
      generalize ((sendList cfg ok rf db.version r).2.take n) = ws
      induction ws generalizing db with
      | nil => rfl
      | cons w ws ih =>
        rw [List.foldl_cons, ih]
        · cases w <;> rfl
        · intro k; have := ha k; cases w <;> exact this
    rw [this]; exact ha k
  | getVersion cfg =>
    simp only [events, step, List.foldl_nil]
    have : (getVersion cfg db).2.cache = db.cache := by
      unfold getVersion
      split
      · rfl
      · split
        · rfl
        · split <;> rfl
    rw [this]; exact ha k
  | restart => simpa [events, step, apply] using ha k

theorem run_agrees (times : List Int) (ops : List Op) (db : Db) (m : Str → Option Info)
    (hs : ∀ o ∈ ops, Stores o) (ht : ∀ o ∈ ops, ∀ t ∈ readings o, t ∈ times)
    (ha : ∀ k, Agrees times (m k) (get db.cache k)) (k : Str) :
    Agrees times ((history db ops).foldl remember m k) (get (run db ops).cache k) := by
  induction ops generalizing db m with
  | nil => exact ha k
  | cons o os ih =>
    simp only [history, List.foldl_append, run, List.foldl_cons]
    exact ih (step db o) _ (fun o' h => hs o' (List.mem_cons_of_mem _ h))
      (fun o' h => ht o' (List.mem_cons_of_mem _ h))
      (fun k => step_agrees times db o m (hs o List.mem_cons_self) (ht o List.mem_cons_self) ha k)

/-- C110, the part that holds: after any history the cache holds for every tag exactly what the CSMS
last said about it since the cache was cleared, in an Authorize.conf or a StartTransaction.conf, except
that a row is marked as Expired once its expiry date has been seen to have passed. Missing: the idTagInfo
of StopTransaction.conf (see the violation), and statements that fail. -/
theorem C110_partial (ops : List Op) (hs : ∀ o ∈ ops, Stores o) (k : Str) :
    Agrees (ops.flatMap readings) (remembered (history {} ops) k) (get (run {} ops).cache k) := by
  refine run_agrees _ ops {} _ hs ?_ ?_ k
  · intro o ho t ht
    exact List.mem_flatMap.mpr ⟨o, ho, ht⟩
  · intro k
    simp [get, Agrees]

example : ∀ o ∈ [Op.authorize exCfg (exEnv true (.conf (yesUntil 500))) tagA false,
    .startConf tagB no true, .clearCache exCfg true, .startConf tagA yes true], Stores o := by
  simp [Stores, exEnv]

/-- C110 is violated: the CSMS accepts a tag, then says in StopTransaction.conf that it is blocked; the
cache goes on accepting it. -/
theorem C110_violated :
    ∃ (ops : List Op) (k : Str),
      remembered (history {} ops) k = some no ∧ get (run {} ops).cache k = some yes ∧
      (authorize exCfg (exEnv false .offline) k false (run {} ops)).outcome = .info yes :=
  ⟨[.startConf tagA yes true, .stopConf tagA no true], tagA, by decide⟩

/-- ClearCache empties the cache exactly when it is answered with Accepted. -/
theorem C110_clear (cfg : Config) (ok : Bool) (db : Db) :
    ((clearCache cfg ok db).1 = some true → (clearCache cfg ok db).2 = { db with cache := [] }) ∧
    ((clearCache cfg ok db).1 ≠ some true → (clearCache cfg ok db).2 = db) := by
  unfold clearCache
  split
  · cases ok <;> simp
  · simp

/-! ### C113: contracts -/

/-- C113: Plug&Charge authorization answers Accepted only if the CSMS accepted a request of this call, or
the station is offline, may validate contracts and authorize locally while offline, found the certificate
valid, and list or cache accept the eMAID. -/
theorem C113_justified (cfg : Config) (env : Env) (p : Pnc) (k : Str) (db : Db)
    (h : (pncAuthorize cfg env p k db).status = some .accepted) :
    cfg.pnc = true ∧
    ((∃ r, (pncAuthorize cfg env p k db).sent = [r] ∧ p.answer r = some .accepted) ∨
     (env.ws = some false ∧ p.certificate = true ∧ p.verify = .valid ∧ cfg.contractOffline = true ∧
      cfg.authorizeOffline = true ∧ (pncAuthorize cfg env p k db).sent = [] ∧
      ((∃ i, cfg.listEnabled = true ∧ (k, i) ∈ db.list ∧ i.status = .accepted ∧ Fresh i env.nowList) ∨
       (∃ i, cfg.cache.isSome = true ∧ (k, i) ∈ db.cache ∧ i.status = .accepted ∧
        Fresh i env.nowSecond)))) := by
  have fwd : ∀ r, (pncForward p r db).status = some .accepted →
      ∃ r', (pncForward p r db).sent = [r'] ∧ p.answer r' = some .accepted := by
    intro r hr
    refine ⟨r, rfl, ?_⟩
    simp only [pncForward, Option.some.injEq] at hr
    cases ha : p.answer r with
    | none => simp [ha] at hr
    | some s => simpa [ha] using hr
  unfold pncAuthorize at h ⊢
  cases hp : cfg.pnc with
  | false => simp [hp, pncLocal] at h
  | true =>
    refine ⟨rfl, ?_⟩
    simp only [hp, Bool.not_true, Bool.false_eq_true, if_false] at h ⊢
    cases hw : env.ws with
    | none => simp [hw] at h
    | some connected =>
      simp only [hw] at h ⊢
      split at h
      · rename_i hc
        rw [if_pos hc]
        exact .inl (fwd _ h)
      · rename_i hc
        rw [if_neg hc]
        split at h
        · rename_i hcert
          rw [if_pos hcert]
          cases connected with
          | true =>
            simp only [if_true] at h ⊢
            unfold pncOnline at h ⊢
            split at h
            · rename_i h1
              rw [if_pos h1]
              split at h
              · rename_i h2
                rw [if_pos h2]
                exact .inl (fwd _ h)
              · simp [pncLocal] at h
            · rename_i h1
              rw [if_neg h1]
              split at h
              · rename_i h2
                rw [if_pos h2]
                exact .inl (fwd _ h)
              · rename_i h2
                rw [if_neg h2]
                split at h
                · rename_i h3
                  rw [if_pos h3]
                  exact .inl (fwd _ h)
                · simp [pncLocal] at h
          | false =>
            simp only [Bool.false_eq_true, if_false] at h ⊢
            right
            unfold pncOffline at h ⊢
            split at h
            · rename_i h1
              rw [if_pos h1]
              cases hv : p.verify with
              | valid =>
                simp only [hv] at h ⊢
                split at h
                · rename_i h2
                  rw [if_pos h2]
                  unfold pncList at h ⊢
                  cases ho : (authorize cfg env k true db).outcome with
                  | undefined => simp [ho] at h
                  | info i =>
                    simp only [ho, Option.some.injEq] at h ⊢
                    have ha : i.status = .accepted := by
                      by_cases hne : i.status = .accepted
                      · exact hne
                      · rw [if_neg hne] at h
                        simp at h
                    refine ⟨by simp, hcert, by simp, h1, h2, trivial, ?_⟩
                    rcases C109_partial cfg env k true db i ho ha with ⟨j, g1, _, _⟩ |
                      ⟨j, g1, g2, g3, g4, g5⟩ | ⟨j, g1, g2, g3, g4, g5, _⟩ | ⟨g1, g2, g3⟩
                    · rw [C109_local_only] at g1; simp at g1
                    · exact .inl ⟨j, g1, g3, g4, g5⟩
                    · exact .inr ⟨j, g1, g3, g4, g5⟩
                    · rw [C109_local_only] at g1; simp at g1
                · simp [pncLocal] at h
              | expired => simp [hv, pncLocal] at h
              | invalidSignature => simp [hv, pncLocal] at h
              | issuerNotFound => simp [hv, pncLocal] at h
              | invalidLeafSignature => simp [hv, pncLocal] at h
              | invalidChain => simp [hv, pncLocal] at h
              | unknown => simp [hv, pncLocal] at h
            · simp [pncLocal] at h
        · simp [pncLocal] at h

def exPnc (v : CertResult) (a : Option Status2) : Pnc :=
  { hashData := false, certificate := true, verify := v, ocsp := true, answer := fun _ => a }

example :
    (pncAuthorize exCfg (exEnv false .offline) (exPnc .valid none) tagB exDb).status = some .accepted ∧
    (pncAuthorize exCfg (exEnv true .timeout) (exPnc .valid (some .accepted)) tagB exDb).status =
      some .accepted ∧
    (pncAuthorize exCfg (exEnv false .offline) (exPnc .expired none) tagB exDb).status =
      some .expired := by decide

/-- The contract certificate itself is sent to the CSMS only while connected, and only if central
contract validation is allowed and the station cannot do without: no root is found, or no hash data can be
made. -/
theorem C113_certificate (cfg : Config) (env : Env) (p : Pnc) (k : Str) (db : Db)
    (h : .certificate ∈ (pncAuthorize cfg env p k db).sent) :
    cfg.pnc = true ∧ env.ws = some true ∧ cfg.central = some true ∧ p.certificate = true ∧
    p.hashData = false ∧ (p.verify = .issuerNotFound ∨ p.ocsp = false) := by
  have cen : cfg.central.getD false = true → cfg.central = some true := by
    cases cfg.central with
    | none => simp
    | some b => simp
  unfold pncAuthorize at h
  cases hp : cfg.pnc with
  | false => simp [hp, pncLocal] at h
  | true =>
    simp only [hp, Bool.not_true, Bool.false_eq_true, if_false] at h
    cases hw : env.ws with
    | none => simp [hw] at h
    | some connected =>
      simp only [hw] at h
      split at h
      · simp [pncForward] at h
      · rename_i hc
        split at h
        · rename_i hcert
          cases connected with
          | true =>
            simp only [Bool.true_and] at hc
            simp only [if_true] at h
            unfold pncOnline at h
            split at h
            · rename_i h1
              split at h
              · rename_i h2
                exact ⟨rfl, rfl, cen h2, hcert, by simpa using hc, .inl h1⟩
              · simp [pncLocal] at h
            · split at h
              · simp [pncForward] at h
              · rename_i h2
                split at h
                · rename_i h3
                  exact ⟨rfl, rfl, cen h3, hcert, by simpa using hc, .inr (by simpa using h2)⟩
                · simp [pncLocal] at h
          | false =>
            simp only [Bool.false_eq_true, if_false] at h
            unfold pncOffline at h
            split at h
            · split at h
              · split at h
                · unfold pncList at h
                  split at h <;> simp at h
                · simp [pncLocal] at h
              · simp [pncLocal] at h
              · simp [pncLocal] at h
            · simp [pncLocal] at h
        · simp [pncLocal] at h

example : .certificate ∈ (pncAuthorize { exCfg with central := some true } (exEnv true .timeout)
    (exPnc .issuerNotFound none) tagB exDb).sent := by decide

/-- While connected the CSMS decides whenever it can be asked: with hash data passed, or made from the
certificate of a known issuer, the answer is that of the CSMS, or Unknown without a usable answer. -/
theorem C113_online (cfg : Config) (env : Env) (p : Pnc) (k : Str) (db : Db) (hp : cfg.pnc = true)
    (hw : env.ws = some true)
    (h : p.hashData = true ∨ (p.certificate = true ∧ p.verify ≠ .issuerNotFound ∧ p.ocsp = true)) :
    ∃ given, (pncAuthorize cfg env p k db).sent = [.hash given] ∧ given = p.hashData ∧
      (pncAuthorize cfg env p k db).status = some ((p.answer (.hash given)).getD .unknown) := by
  unfold pncAuthorize
  simp only [hp, hw, Bool.not_true, Bool.false_eq_true, if_false, Bool.true_and, if_true]
  cases hh : p.hashData with
  | true => exact ⟨true, rfl, rfl, rfl⟩
  | false =>
    rcases h with h | ⟨h1, h2, h3⟩
    · rw [hh] at h; simp at h
    · simp only [Bool.false_eq_true, if_false, h1, if_true]
      unfold pncOnline
      rw [if_neg h2, if_pos h3]
      exact ⟨false, rfl, rfl, rfl⟩

/-- Before the websocket is created, Plug&Charge authorization dereferences a null pointer. -/
theorem C113_no_websocket_violated :
    ∃ (cfg : Config) (env : Env) (p : Pnc) (k : Str) (db : Db), (∀ c, env.fails c = false) ∧
      (pncAuthorize cfg env p k db).status = none :=
  ⟨exCfg, { exEnv true (.conf yes) with ws := none }, exPnc .valid none, tagB, exDb, fun _ => rfl,
    by decide⟩

end Verif.Auth16
