import Verif.Auth.Lemmas
/-
Lemmas about the stages of validate_token and about histories.
-/
namespace Verif.Auth

/-- Requests sent by validate_token are about the token in question. -/
theorem lastStage_sent {cfg : Config} {env : Env} {t : Token} {cert : Option Str}
    {ocsp : Option (List Nat)} {c : List Row} {r : AuthReq}
    (h : r ∈ (lastStage cfg env t cert ocsp c).sent) : r.token = t := by
  unfold lastStage at h
  split at h
  · simp at h
  · split at h
    · simp at h
    · rw [authorizeReq_token h]

theorem localStages_sent {cfg : Config} {env : Env} {t : Token} {cert : Option Str}
    {ocsp : Option (List Nat)} {db : Db} {r : AuthReq}
    (h : r ∈ (localStages cfg env t cert ocsp db).sent) : r.token = t := by
  unfold localStages at h
  split at h
  · rename_i p q hl
    obtain ⟨_, _, _, i, _, hi⟩ := listStage_some hl
    rcases hi with hi | hi | hi | hi
    · have := (Prod.mk.inj hi.2).2; subst this; simp at h
    · have := (Prod.mk.inj hi.2.2).2; subst this; simp at h
    · have := hi.2.2.2
      have h2 := congrArg Prod.snd this
      simp only at h2
      subst h2
      rw [authorizeReq_token h]
    · have := (Prod.mk.inj hi.2.2).2; subst this; simp at h
  · dsimp only at h
    split at h
    · simp at h
    · exact lastStage_sent h

theorem lastStage_justified {cfg : Config} {env : Env} {t : Token} {cert : Option Str}
    {ocsp : Option (List Nat)} {c : List Row}
    (h : (lastStage cfg env t cert ocsp c).resp.info.status = .accepted) :
    CsmsAccepts env t (lastStage cfg env t cert ocsp c).sent ∨
    (env.online = false ∧ cfg.offlineUnknown = true) := by
  unfold lastStage at h ⊢
  split
  · rename_i hc
    right
    simpa using hc
  · rename_i hc
    rw [if_neg hc] at h
    split
    · rename_i hd; rw [if_pos hd] at h; simp [Info.only] at h
    · rename_i hd; rw [if_neg hd] at h
      left
      exact authorizeReq_accepts h

theorem localStages_justified {cfg : Config} {env : Env} {t : Token} {cert : Option Str}
    {ocsp : Option (List Nat)} {db : Db} (hc : ContractOk cfg env t cert)
    (h : (localStages cfg env t cert ocsp db).resp.info.status = .accepted) :
    Justified cfg env t cert db (localStages cfg env t cert ocsp db).sent := by
  unfold localStages at h ⊢
  split
  · rename_i p q hl
    rw [hl] at h
    obtain ⟨h1, h2, _, i, hg, hi⟩ := listStage_some hl
    rcases hi with hi | hi | hi | hi
    · exact .list i h1 h2 (listGet_mem hg) hi.1 hc
    · have := (Prod.mk.inj hi.2.2).1; subst this; simp [Info.only] at h
    · have h3 := hi.2.2.2
      have e1 := congrArg Prod.fst h3
      have e2 := congrArg Prod.snd h3
      simp only at e1 e2
      subst e1; subst e2
      obtain ⟨r, a, m1, m2, m3, m4⟩ := authorizeReq_accepts h
      exact .csms r a m1 m2 m3 m4
    · have := (Prod.mk.inj hi.2.2).1; subst this; simp [Info.only] at h
  · rename_i hl
    rw [hl] at h
    dsimp only at h ⊢
    split
    · rename_i i hi
      rw [hi] at h
      obtain ⟨h1, h2, r, hr, hk, hf, rfl, _⟩ := cacheStage_some hi
      exact .cache r h1 h2 hr hk hf h hc
    · rename_i hn
      rw [hn] at h
      rcases lastStage_justified h with ⟨r, a, m1, m2, m3, m4⟩ | ⟨h1, h2⟩
      · exact .csms r a m1 m2 m3 m4
      · exact .offline h1 h2 (listStage_none_of hl) hc

theorem nodup_validate {cfg : Config} {env : Env} {t : Token} {cert : Option Str}
    {ocsp : Option (List Nat)} {db : Db} (nd : (db.cache.map (·.key)).Nodup) :
    ((validate cfg env t cert ocsp db).cache.map (·.key)).Nodup := by
  have hloc : ((localStages cfg env t cert ocsp db).cache.map (·.key)).Nodup := by
    unfold localStages
    split
    · exact nd
    · dsimp only
      split
      · exact nodup_cacheStage nd
      · unfold lastStage
        split
        · exact nodup_cacheStage nd
        · split
          · exact nodup_cacheStage nd
          · exact nodup_storeAnswer (nodup_cacheStage nd)
  unfold validate
  split
  · exact nd
  · split
    · split
      · exact nd
      · exact hloc
    · exact hloc

theorem nodup_txCache {cfg : TxConfig} {now : Int} {x : TxExchange} {c : List Row}
    (nd : (c.map (·.key)).Nodup) : ((txCache cfg now x c).map (·.key)).Nodup := by
  unfold txCache
  split
  · exact nd
  · split
    · split
      · exact nodup_cachePut nd
      · exact nd
    · exact nd

theorem unique_step {db : Db} (h : UniqueKeys db) (o : Op) : UniqueKeys (step db o) := by
  cases o with
  | validate => exact ⟨h.1, nodup_validate h.2⟩
  | txEvent => exact ⟨h.1, nodup_txCache h.2⟩
  | clearCache enabled =>
    simp only [step]
    split
    · exact ⟨h.1, by simp⟩
    · exact h
  | cleanup => exact ⟨h.1, nodup_cleanup h.2⟩
  | forget => exact ⟨h.1, nodup_cacheDel h.2⟩
  | sendList => exact ⟨nodup_applyAll _ h.1, by simp only [step, afterList, cache_applyAll]; exact h.2⟩
  | crashList =>
    exact ⟨nodup_applyAll _ h.1, by simp only [step, crashedList, cache_applyAll]; exact h.2⟩

/-- A row of the cache is the station's own Unknown or something of the given statements. -/
def Stated (S : List (Token × Info)) (s : Row) : Prop :=
  s.info = .only .unknown ∨ ∃ p ∈ S, key p.1 = s.key ∧ p.2 = s.info

theorem lastStage_stated {cfg : Config} {env : Env} {t : Token} {cert : Option Str}
    {ocsp : Option (List Nat)} {c : List Row} {s : Row}
    (h : s ∈ (lastStage cfg env t cert ocsp c).cache) :
    s ∈ c ∨ Stated ((lastStage cfg env t cert ocsp c).sent.filterMap
      fun r => (env.csms r).map fun a => (r.token, a.info)) s := by
  unfold lastStage at h ⊢
  split
  · rename_i hc; rw [if_pos hc] at h; exact Or.inl h
  · rename_i hc; rw [if_neg hc] at h
    split
    · rename_i hd; rw [if_pos hd] at h; exact Or.inl h
    · rename_i hd; rw [if_neg hd] at h
      dsimp only at h ⊢
      rcases mem_storeAnswer h with h | h
      · exact Or.inl h
      · right
        subst h
        rcases authorizeReq_info env { token := t, cert := cert, ocsp := ocsp } with h | ⟨a, h1, h2, h3⟩
        · exact Or.inl h
        · refine Or.inr ⟨(t, a.info), List.mem_filterMap.mpr ⟨_, h1, ?_⟩, rfl, h3.symm⟩
          rw [h2]; rfl

theorem validate_stated {cfg : Config} {env : Env} {t : Token} {cert : Option Str}
    {ocsp : Option (List Nat)} {db : Db} {s : Row}
    (h : s ∈ (validate cfg env t cert ocsp db).cache) :
    (∃ q ∈ db.cache, q.key = s.key ∧ q.info = s.info) ∨
    Stated (said db (.validate cfg env t cert ocsp)) s := by
  have hloc : s ∈ (localStages cfg env t cert ocsp db).cache →
      (∃ q ∈ db.cache, q.key = s.key ∧ q.info = s.info) ∨
      Stated ((localStages cfg env t cert ocsp db).sent.filterMap
        fun r => (env.csms r).map fun a => (r.token, a.info)) s := by
    intro h
    unfold localStages at h ⊢
    split
    · rename_i hl; rw [hl] at h; exact Or.inl ⟨s, h, rfl, rfl⟩
    · rename_i hl; rw [hl] at h
      dsimp only at h ⊢
      split
      · rename_i hi; rw [hi] at h; exact Or.inl (cacheStage_rows h)
      · rename_i hi; rw [hi] at h
        rcases lastStage_stated h with h | h
        · exact Or.inl (cacheStage_rows h)
        · exact Or.inr h
  simp only [said]
  unfold validate at h ⊢
  split
  · rename_i he; rw [if_pos he] at h; exact Or.inl ⟨s, h, rfl, rfl⟩
  · rename_i he; rw [if_neg he] at h
    split
    · rename_i hm; rw [if_pos hm] at h
      split
      · rename_i hp; rw [hp] at h; exact Or.inl ⟨s, h, rfl, rfl⟩
      · rename_i hp; rw [hp] at h; exact hloc h
    · rename_i hm; rw [if_neg hm] at h; exact hloc h

theorem step_stated {db : Db} {o : Op} {s : Row} (h : s ∈ (step db o).cache) :
    (∃ q ∈ db.cache, q.key = s.key ∧ q.info = s.info) ∨ Stated (said db o) s := by
  cases o with
  | validate => exact validate_stated h
  | txEvent cfg now x =>
    simp only [step, txCache] at h
    split at h
    · exact Or.inl ⟨s, h, rfl, rfl⟩
    · split at h
      · rename_i i t hi ht
        split at h
        · rcases mem_cachePut.mp h with h | h
          · exact Or.inl ⟨s, h.1, rfl, rfl⟩
          · right
            subst h
            refine Or.inr ⟨(t, i), ?_, rfl, rfl⟩
            simp [said, hi, ht]
        · exact Or.inl ⟨s, h, rfl, rfl⟩
      · exact Or.inl ⟨s, h, rfl, rfl⟩
  | clearCache enabled =>
    simp only [step] at h
    split at h
    · simp at h
    · exact Or.inl ⟨s, h, rfl, rfl⟩
  | cleanup => exact Or.inl ⟨s, (mem_cleanup h).1, rfl, rfl⟩
  | forget => exact Or.inl ⟨s, (mem_cacheDel.mp h).1, rfl, rfl⟩
  | sendList =>
    simp only [step, afterList, cache_applyAll] at h
    exact Or.inl ⟨s, h, rfl, rfl⟩
  | crashList =>
    simp only [step, crashedList, cache_applyAll] at h
    exact Or.inl ⟨s, h, rfl, rfl⟩

end Verif.Auth
