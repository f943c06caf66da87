import Verif.Auth.Spec
namespace Verif.Auth

theorem exempt_iff (cfg : Config) (t : Token) : exempt cfg t = true ↔ Exempt cfg t := by
  unfold exempt Exempt HasType ciEq
  cases cfg.authEnabled <;> simp

theorem localAllowed_iff (cfg : Config) (env : Env) :
    localAllowed cfg env = true ↔ LocalPermitted cfg env := by
  unfold localAllowed LocalPermitted
  cases env.online <;> simp

theorem rowExpired_false_iff (lt : Option Int) (now : Int) (r : Row) :
    rowExpired lt now r = false ↔ Fresh lt now r := by
  unfold rowExpired Fresh
  cases lt <;> cases h : r.info.cacheExpiry <;> simp

theorem listGet_mem {l : List (Str × Info)} {k : Str} {i : Info} (h : listGet l k = some i) :
    (k, i) ∈ l := by
  unfold listGet at h
  simp only [Option.map_eq_some_iff] at h
  obtain ⟨e, he, rfl⟩ := h
  have h1 := List.mem_of_find?_eq_some he
  have h2 := List.find?_some he
  simp at h2
  subst h2; exact h1

theorem listGet_none {l : List (Str × Info)} {k : Str} (h : listGet l k = none) (i : Info) :
    (k, i) ∉ l := by
  unfold listGet at h
  simp only [Option.map_eq_none_iff, List.find?_eq_none] at h
  intro hm
  have := h _ hm
  simp at this

theorem listGet_eq {l : List (Str × Info)} {k : Str} {i : Info} (nd : (l.map (·.1)).Nodup)
    (h : (k, i) ∈ l) : listGet l k = some i := by
  induction l with
  | nil => simp at h
  | cons e es ih =>
    simp only [List.map_cons, List.nodup_cons] at nd
    unfold listGet
    rw [List.find?_cons]
    rcases List.mem_cons.mp h with h | h
    · subst h; simp
    · have hne : e.1 ≠ k := by
        intro hk
        apply nd.1
        rw [hk]; exact List.mem_map.mpr ⟨_, h, rfl⟩
      have : (e.1 == k) = false := by simpa using hne
      rw [this]
      exact ih nd.2 h

theorem cacheGet_mem {c : List Row} {k : Str} {r : Row} (h : cacheGet c k = some r) :
    r ∈ c ∧ r.key = k := by
  unfold cacheGet at h
  exact ⟨List.mem_of_find?_eq_some h, by simpa using List.find?_some h⟩

theorem cacheGet_eq {c : List Row} {r : Row} (nd : (c.map (·.key)).Nodup) (h : r ∈ c) :
    cacheGet c r.key = some r := by
  induction c with
  | nil => simp at h
  | cons e es ih =>
    simp only [List.map_cons, List.nodup_cons] at nd
    unfold cacheGet
    rw [List.find?_cons]
    rcases List.mem_cons.mp h with h | h
    · subst h; simp
    · have hne : e.key ≠ r.key := by
        intro hk
        apply nd.1
        rw [hk]; exact List.mem_map.mpr ⟨_, h, rfl⟩
      have : (e.key == r.key) = false := by simpa using hne
      rw [this]
      exact ih nd.2 h

theorem mem_cacheDel {c : List Row} {k : Str} {r : Row} : r ∈ cacheDel c k ↔ r ∈ c ∧ r.key ≠ k := by
  unfold cacheDel; simp

theorem mem_cachePut {c : List Row} {k : Str} {i : Info} {now : Int} {r : Row} :
    r ∈ cachePut c k i now ↔ (r ∈ c ∧ r.key ≠ k) ∨ r = ⟨k, i, now⟩ := by
  unfold cachePut; simp [mem_cacheDel]

theorem nodup_cacheDel {c : List Row} {k : Str} (h : (c.map (·.key)).Nodup) :
    ((cacheDel c k).map (·.key)).Nodup := by
  unfold cacheDel
  exact h.sublist (List.Sublist.map _ List.filter_sublist)

theorem nodup_cachePut {c : List Row} {k : Str} {i : Info} {now : Int} (h : (c.map (·.key)).Nodup) :
    ((cachePut c k i now).map (·.key)).Nodup := by
  unfold cachePut
  rw [List.map_append, List.nodup_append]
  refine ⟨nodup_cacheDel h, by simp, ?_⟩
  intro a ha b hb
  simp only [List.map_cons, List.map_nil, List.mem_singleton] at hb
  subst hb
  simp only [List.mem_map] at ha
  obtain ⟨r, hr, rfl⟩ := ha
  exact (mem_cacheDel.mp hr).2

theorem map_key_cacheTouch (c : List Row) (k : Str) (now : Int) :
    (cacheTouch c k now).map (·.key) = c.map (·.key) := by
  unfold cacheTouch
  rw [List.map_map]
  apply List.map_congr_left
  intro r _
  simp only [Function.comp]
  split <;> rfl

theorem mem_cacheTouch {c : List Row} {k : Str} {now : Int} {r : Row} (h : r ∈ cacheTouch c k now) :
    ∃ s ∈ c, s.key = r.key ∧ s.info = r.info ∧ (r = s ∨ s.key = k ∧ r.lastUsed = now) := by
  unfold cacheTouch at h
  simp only [List.mem_map] at h
  obtain ⟨s, hs, rfl⟩ := h
  refine ⟨s, hs, ?_⟩
  split
  · rename_i hk
    refine ⟨rfl, rfl, Or.inr ⟨by simpa using hk, rfl⟩⟩
  · exact ⟨rfl, rfl, Or.inl rfl⟩

/-! ### authorize_req -/

theorem authorizeReq_token {env : Env} {q r : AuthReq} (h : r ∈ (authorizeReq env q).2) : r = q := by
  unfold authorizeReq at h
  split at h <;> simpa using h

theorem authorizeReq_accepted {env : Env} {q : AuthReq}
    (h : (authorizeReq env q).1.info.status = .accepted) :
    q ∈ (authorizeReq env q).2 ∧ ∃ a, env.csms q = some a ∧ a.info.status = .accepted := by
  unfold authorizeReq at h ⊢
  split
  · rename_i ho
    rw [if_pos ho] at h
    cases hc : env.csms q with
    | none => rw [hc] at h; simp [Info.only] at h
    | some a => rw [hc] at h; exact ⟨by simp, a, rfl, h⟩
  · rename_i ho
    rw [if_neg ho] at h
    simp [Info.only] at h

theorem authorizeReq_info (env : Env) (q : AuthReq) :
    (authorizeReq env q).1.info = .only .unknown ∨
    ∃ a, q ∈ (authorizeReq env q).2 ∧ env.csms q = some a ∧ (authorizeReq env q).1.info = a.info := by
  unfold authorizeReq
  split
  · cases hc : env.csms q with
    | none => exact Or.inl rfl
    | some a => exact Or.inr ⟨a, by simp, rfl, rfl⟩
  · exact Or.inl rfl

/-! ### eMAID -/

theorem emaidOffline_accepted {cfg : Config} {env : Env} {r : Resp} (h : emaidOffline cfg env = some r) :
    r.info.status ≠ .accepted := by
  unfold emaidOffline at h
  split at h
  · split at h <;> (try split at h) <;> simp at h <;> subst h <;> simp [Info.only]
  · simp at h; subst h; simp [Info.only]

theorem emaidOffline_none {cfg : Config} {env : Env} :
    emaidOffline cfg env = none ↔
      cfg.contractOffline = true ∧ env.verify = .valid ∧ cfg.localAuthorizeOffline = true := by
  unfold emaidOffline
  cases cfg.contractOffline <;> cases env.verify <;> cases cfg.localAuthorizeOffline <;> simp

theorem centralValidation_token {cfg : Config} {env : Env} {t : Token} {c : Str} {r : AuthReq}
    (h : r ∈ (centralValidation cfg env t c).2) : r.token = t := by
  unfold centralValidation at h
  split at h
  · rw [authorizeReq_token h]
  · simp at h

theorem emaidOnline_token {cfg : Config} {env : Env} {t : Token} {c : Str} {r : AuthReq}
    (h : r ∈ (emaidOnline cfg env t c).2) : r.token = t := by
  unfold emaidOnline at h
  split at h
  · exact centralValidation_token h
  · split at h
    · exact centralValidation_token h
    · rw [authorizeReq_token h]

/-- The CSMS accepted the token in one of the requests `s`. -/
def CsmsAccepts (env : Env) (t : Token) (s : List AuthReq) : Prop :=
  ∃ r a, r ∈ s ∧ r.token = t ∧ env.csms r = some a ∧ a.info.status = .accepted

theorem authorizeReq_accepts {env : Env} {q : AuthReq}
    (h : (authorizeReq env q).1.info.status = .accepted) :
    CsmsAccepts env q.token (authorizeReq env q).2 := by
  obtain ⟨h1, a, h2, h3⟩ := authorizeReq_accepted h
  exact ⟨q, a, h1, rfl, h2, h3⟩

theorem centralValidation_accepts {cfg : Config} {env : Env} {t : Token} {c : Str}
    (h : (centralValidation cfg env t c).1.info.status = .accepted) :
    CsmsAccepts env t (centralValidation cfg env t c).2 := by
  unfold centralValidation at h ⊢
  split
  · rename_i hc; rw [if_pos hc] at h; exact authorizeReq_accepts h
  · rename_i hc; rw [if_neg hc] at h; simp [Info.only] at h

theorem emaidOnline_accepts {cfg : Config} {env : Env} {t : Token} {c : Str}
    (h : (emaidOnline cfg env t c).1.info.status = .accepted) :
    CsmsAccepts env t (emaidOnline cfg env t c).2 := by
  unfold emaidOnline at h ⊢
  split
  · rename_i hc; rw [if_pos hc] at h; exact centralValidation_accepts h
  · rename_i hc; rw [if_neg hc] at h
    split
    · rename_i hd; rw [if_pos hd] at h; exact centralValidation_accepts h
    · rename_i hd; rw [if_neg hd] at h; exact authorizeReq_accepts h

theorem emaid_accepts {cfg : Config} {env : Env} {t : Token} {cert : Option Str}
    {ocsp : Option (List Nat)} {p : Resp × List AuthReq} (he : emaid cfg env t cert ocsp = some p)
    (h : p.1.info.status = .accepted) : CsmsAccepts env t p.2 := by
  unfold emaid at he
  split at he
  · simp only [Option.some.injEq] at he
    subst he; exact authorizeReq_accepts h
  · split at he
    · split at he
      · simp only [Option.some.injEq] at he
        subst he; exact emaidOnline_accepts h
      · simp only [Option.map_eq_some_iff] at he
        obtain ⟨r, hr, rfl⟩ := he
        exact absurd h (emaidOffline_accepted hr)
    · simp only [Option.some.injEq] at he
      subst he; simp [Info.only] at h

theorem emaid_token {cfg : Config} {env : Env} {t : Token} {cert : Option Str}
    {ocsp : Option (List Nat)} {p : Resp × List AuthReq} (he : emaid cfg env t cert ocsp = some p)
    {r : AuthReq} (h : r ∈ p.2) : r.token = t := by
  unfold emaid at he
  split at he
  · simp only [Option.some.injEq] at he
    subst he; rw [authorizeReq_token h]
  · split at he
    · split at he
      · simp only [Option.some.injEq] at he
        subst he; exact emaidOnline_token h
      · simp only [Option.map_eq_some_iff] at he
        obtain ⟨q, hq, rfl⟩ := he
        simp at h
    · simp only [Option.some.injEq] at he
      subst he; simp at h

theorem emaid_none {cfg : Config} {env : Env} {t : Token} {cert : Option Str}
    {ocsp : Option (List Nat)} :
    emaid cfg env t cert ocsp = none ↔
      env.online = false ∧ cert.isSome = true ∧ cfg.contractOffline = true ∧ env.verify = .valid ∧
      cfg.localAuthorizeOffline = true := by
  unfold emaid
  cases ho : env.online
  · cases cert with
    | none => simp
    | some c => simp [emaidOffline_none]
  · cases ocsp <;> cases cert <;> simp

/-! ### The stages -/

theorem listStage_none_of {cfg : Config} {env : Env} {t : Token} {cert : Option Str}
    {ocsp : Option (List Nat)} {db : Db} (h : listStage cfg env t cert ocsp db = none) :
    cfg.listEnabled = true → LocalPermitted cfg env → env.listReadFails = false →
      ∀ i, ¬ Listed db t i := by
  intro h1 h2 h3 i
  unfold listStage at h
  rw [(localAllowed_iff cfg env).mpr h2, h1, h3] at h
  simp only [Bool.and_true, Bool.true_and, Bool.not_false, if_true, Option.map_eq_none_iff] at h
  exact listGet_none h i

theorem listStage_some {cfg : Config} {env : Env} {t : Token} {cert : Option Str}
    {ocsp : Option (List Nat)} {db : Db} {p : Resp × List AuthReq}
    (h : listStage cfg env t cert ocsp db = some p) :
    cfg.listEnabled = true ∧ LocalPermitted cfg env ∧ env.listReadFails = false ∧
    ∃ i, listGet db.list (key t) = some i ∧
      ((i.status = .accepted ∧ p = ({ info := i }, [])) ∨
       (i.status ≠ .accepted ∧ cfg.disableRemote = true ∧ p = ({ info := .only .unknown }, [])) ∨
       (i.status ≠ .accepted ∧ cfg.disableRemote = false ∧ env.online = true ∧
          p = authorizeReq env { token := t, cert := cert, ocsp := ocsp }) ∨
       (i.status ≠ .accepted ∧ env.online = false ∧ p = ({ info := .only .unknown }, []))) := by
  unfold listStage at h
  split at h
  · rename_i hc
    simp only [Bool.and_eq_true, Bool.not_eq_true'] at hc
    refine ⟨hc.1.1, (localAllowed_iff cfg env).mp hc.1.2, hc.2, ?_⟩
    simp only [Option.map_eq_some_iff] at h
    obtain ⟨i, hi, rfl⟩ := h
    refine ⟨i, hi, ?_⟩
    split
    · exact Or.inl ⟨‹_›, rfl⟩
    · split
      · exact Or.inr (Or.inl ⟨‹_›, ‹_›, rfl⟩)
      · split
        · exact Or.inr (Or.inr (Or.inl ⟨‹_›, by simpa using ‹¬cfg.disableRemote = true›, ‹_›, rfl⟩))
        · exact Or.inr (Or.inr (Or.inr ⟨‹_›, by simpa using ‹¬env.online = true›, rfl⟩))
  · simp at h

theorem cacheHit_some {cfg : Config} {env : Env} {k : Str} {c : List Row} {r : Row} {i : Info}
    (h : (cacheHit cfg env k c r).1 = some i) :
    Fresh cfg.lifetime env.now r ∧ i = r.info ∧
      (i.status = .accepted ∨ cfg.disablePostAuthorize = true) := by
  unfold cacheHit at h
  split at h
  · simp at h
  · rename_i he
    have hf := (rowExpired_false_iff cfg.lifetime env.now r).mp (by simpa using he)
    refine ⟨hf, ?_⟩
    split at h
    · split at h
      · simp at h
      · simp only [Option.some.injEq] at h
        subst h; exact ⟨rfl, Or.inl ‹_›⟩
    · split at h
      · simp only [Option.some.injEq] at h
        subst h; exact ⟨rfl, Or.inr ‹_›⟩
      · simp at h

theorem cacheStage_some {cfg : Config} {env : Env} {t : Token} {c : List Row} {i : Info}
    (h : (cacheStage cfg env t c).1 = some i) :
    cfg.cacheEnabled = true ∧ LocalPermitted cfg env ∧
    ∃ r ∈ c, r.key = key t ∧ Fresh cfg.lifetime env.now r ∧ i = r.info ∧
      (i.status = .accepted ∨ cfg.disablePostAuthorize = true) := by
  unfold cacheStage at h
  split at h
  · rename_i hc
    simp only [Bool.and_eq_true, Bool.not_eq_true'] at hc
    refine ⟨hc.1.1, (localAllowed_iff cfg env).mp hc.1.2, ?_⟩
    split at h
    · rename_i r hr
      obtain ⟨h1, h2⟩ := cacheGet_mem hr
      obtain ⟨h3, h4⟩ := cacheHit_some h
      exact ⟨r, h1, h2, h3, h4⟩
    · simp at h
  · simp at h

/-- The rows after the cache branch: they were there before, perhaps with an older time stamp; a row
that is gone was expired and belonged to this token. -/
theorem cacheHit_rows {cfg : Config} {env : Env} {k : Str} {c : List Row} {r s : Row}
    (hs : s ∈ (cacheHit cfg env k c r).2) : ∃ q ∈ c, q.key = s.key ∧ q.info = s.info := by
  unfold cacheHit at hs
  split at hs
  · dsimp only at hs
    split at hs
    · exact ⟨s, hs, rfl, rfl⟩
    · exact ⟨s, (mem_cacheDel.mp hs).1, rfl, rfl⟩
  · split at hs
    · split at hs
      · exact ⟨s, hs, rfl, rfl⟩
      · obtain ⟨q, h1, h2, h3, _⟩ := mem_cacheTouch hs
        exact ⟨q, h1, h2, h3⟩
    · split at hs <;> exact ⟨s, hs, rfl, rfl⟩

theorem cacheStage_rows {cfg : Config} {env : Env} {t : Token} {c : List Row} {s : Row}
    (hs : s ∈ (cacheStage cfg env t c).2) : ∃ q ∈ c, q.key = s.key ∧ q.info = s.info := by
  unfold cacheStage at hs
  split at hs
  · split at hs
    · exact cacheHit_rows hs
    · exact ⟨s, hs, rfl, rfl⟩
  · exact ⟨s, hs, rfl, rfl⟩

theorem mem_cacheTouch_of {c : List Row} {k : Str} {now : Int} {s : Row} (h : s ∈ c) :
    ∃ q ∈ cacheTouch c k now, q.key = s.key ∧ q.info = s.info ∧ (s.key ≠ k → q = s) := by
  refine ⟨if s.key == k then { s with lastUsed := now } else s, List.mem_map.mpr ⟨s, h, rfl⟩, ?_⟩
  split
  · rename_i hk
    have hk' : s.key = k := by simpa using hk
    exact ⟨rfl, rfl, fun hn => absurd hk' hn⟩
  · exact ⟨rfl, rfl, fun _ => rfl⟩

theorem cacheStage_keeps {cfg : Config} {env : Env} {t : Token} {c : List Row} {s : Row} (hs : s ∈ c)
    (nd : (c.map (·.key)).Nodup) :
    (∃ q ∈ (cacheStage cfg env t c).2, q.key = s.key ∧ q.info = s.info ∧ (s.key ≠ key t → q = s)) ∨
    (s.key = key t ∧ ¬ Fresh cfg.lifetime env.now s) := by
  unfold cacheStage
  split
  · split
    · rename_i r hr
      obtain ⟨hr1, hr2⟩ := cacheGet_mem hr
      unfold cacheHit
      split
      · rename_i he
        split
        · exact Or.inl ⟨s, hs, rfl, rfl, fun _ => rfl⟩
        · by_cases hk : s.key = key t
          · right
            refine ⟨hk, ?_⟩
            have : cacheGet c s.key = some s := cacheGet_eq nd hs
            rw [hk, hr] at this
            simp only [Option.some.injEq] at this
            subst this
            intro hf
            have := (rowExpired_false_iff cfg.lifetime env.now r).mpr hf
            rw [he] at this; simp at this
          · exact Or.inl ⟨s, mem_cacheDel.mpr ⟨hs, hk⟩, rfl, rfl, fun _ => rfl⟩
      · split
        · split
          · exact Or.inl ⟨s, hs, rfl, rfl, fun _ => rfl⟩
          · exact Or.inl (mem_cacheTouch_of hs)
        · split <;> exact Or.inl ⟨s, hs, rfl, rfl, fun _ => rfl⟩
    · exact Or.inl ⟨s, hs, rfl, rfl, fun _ => rfl⟩
  · exact Or.inl ⟨s, hs, rfl, rfl, fun _ => rfl⟩

theorem nodup_cacheStage {cfg : Config} {env : Env} {t : Token} {c : List Row}
    (nd : (c.map (·.key)).Nodup) : ((cacheStage cfg env t c).2.map (·.key)).Nodup := by
  unfold cacheStage
  split
  · split
    · unfold cacheHit
      split
      · dsimp only
        split
        · exact nd
        · exact nodup_cacheDel nd
      · split
        · split
          · exact nd
          · dsimp only; rw [map_key_cacheTouch]; exact nd
        · split <;> exact nd
    · exact nd
  · exact nd

theorem mem_storeAnswer {cfg : Config} {env : Env} {t : Token} {i : Info} {c : List Row} {s : Row}
    (h : s ∈ storeAnswer cfg env t i c) : s ∈ c ∨ s = ⟨key t, i, env.now⟩ := by
  unfold storeAnswer at h
  split at h
  · rcases mem_cachePut.mp h with h | h
    · exact Or.inl h.1
    · exact Or.inr h
  · exact Or.inl h

theorem nodup_storeAnswer {cfg : Config} {env : Env} {t : Token} {i : Info} {c : List Row}
    (nd : (c.map (·.key)).Nodup) : ((storeAnswer cfg env t i c).map (·.key)).Nodup := by
  unfold storeAnswer
  split
  · exact nodup_cachePut nd
  · exact nd

/-! ### Eviction -/

theorem oldest_none {c : List Row} : oldest c = none ↔ c = [] := by
  cases c with
  | nil => simp [oldest]
  | cons r rs =>
    simp only [oldest]
    split
    · simp
    · split <;> simp

theorem oldest_spec {c : List Row} {m : Row} (h : oldest c = some m) :
    m ∈ c ∧ ∀ r ∈ c, m.lastUsed ≤ r.lastUsed := by
  induction c generalizing m with
  | nil => simp [oldest] at h
  | cons r rs ih =>
    simp only [oldest] at h
    split at h
    · rename_i hn
      simp only [Option.some.injEq] at h
      subst h
      rw [oldest_none] at hn
      subst hn
      simp
    · rename_i q hq
      obtain ⟨h1, h2⟩ := ih hq
      split at h
      · rename_i hlt
        simp only [Option.some.injEq] at h
        subst h
        refine ⟨List.mem_cons_of_mem _ h1, ?_⟩
        intro x hx
        rcases List.mem_cons.mp hx with hx | hx
        · subst hx; omega
        · exact h2 x hx
      · rename_i hlt
        simp only [Option.some.injEq] at h
        subst h
        refine ⟨List.mem_cons_self, ?_⟩
        intro x hx
        rcases List.mem_cons.mp hx with hx | hx
        · subst hx; omega
        · have := h2 x hx; omega

theorem totalSize_cacheDel {size : Row → Nat} {c : List Row} {m : Row} (nd : (c.map (·.key)).Nodup)
    (h : m ∈ c) : totalSize size c = size m + totalSize size (cacheDel c m.key) := by
  induction c with
  | nil => simp at h
  | cons r rs ih =>
    simp only [List.map_cons, List.nodup_cons] at nd
    rcases List.mem_cons.mp h with h | h
    · subst h
      have : cacheDel (m :: rs) m.key = rs := by
        unfold cacheDel
        rw [List.filter_cons_of_neg (by simp)]
        apply List.filter_eq_self.mpr
        intro a ha
        have : a.key ≠ m.key := by
          intro hk; apply nd.1; rw [← hk]; exact List.mem_map.mpr ⟨a, ha, rfl⟩
        simpa using this
      rw [this]; simp [totalSize]
    · have hne : r.key ≠ m.key := by
        intro hk; apply nd.1; rw [hk]; exact List.mem_map.mpr ⟨m, h, rfl⟩
      have : cacheDel (r :: rs) m.key = r :: cacheDel rs m.key := by
        unfold cacheDel
        rw [List.filter_cons_of_pos (by simpa using hne)]
      rw [this]
      have := ih nd.2 h
      simp only [totalSize, List.map_cons, List.sum_cons] at this ⊢
      omega

theorem length_deleteOldest {c : List Row} (h : c ≠ []) : (deleteOldest c).length < c.length := by
  unfold deleteOldest
  cases ho : oldest c with
  | none => exact absurd (oldest_none.mp ho) h
  | some m =>
    dsimp only
    have hm := (oldest_spec ho).1
    unfold cacheDel
    have := List.length_filter_lt_length_iff_exists (p := fun r : Row => !(r.key == m.key)) (l := c)
    exact this.mpr ⟨m, hm, by simp⟩

theorem nodup_deleteOldest {c : List Row} (nd : (c.map (·.key)).Nodup) :
    ((deleteOldest c).map (·.key)).Nodup := by
  unfold deleteOldest
  split
  · exact nd
  · exact nodup_cacheDel nd

theorem evict_sub {size : Row → Nat} {max fuel : Nat} {c : List Row} {r : Row}
    (h : r ∈ evict size max fuel c) : r ∈ c := by
  induction fuel generalizing c with
  | zero => exact h
  | succ n ih =>
    simp only [evict] at h
    split at h
    · have := ih h
      unfold deleteOldest at this
      split at this
      · exact this
      · exact (mem_cacheDel.mp this).1
    · exact h

theorem evict_fits {size : Row → Nat} {max fuel : Nat} {c : List Row} (h : c.length ≤ fuel) :
    totalSize size (evict size max fuel c) ≤ max := by
  induction fuel generalizing c with
  | zero =>
    have : c = [] := List.length_eq_zero_iff.mp (by omega)
    subst this; simp [evict, totalSize]
  | succ n ih =>
    simp only [evict]
    split
    · rename_i hgt
      have hne : c ≠ [] := by
        intro hc; subst hc; simp [totalSize] at hgt
      apply ih
      have := length_deleteOldest hne
      omega
    · omega

theorem nodup_evict {size : Row → Nat} {max fuel : Nat} {c : List Row} (nd : (c.map (·.key)).Nodup) :
    ((evict size max fuel c).map (·.key)).Nodup := by
  induction fuel generalizing c with
  | zero => exact nd
  | succ n ih =>
    simp only [evict]
    split
    · exact ih (nodup_deleteOldest nd)
    · exact nd

/-- Rows of the same key are the same row. -/
theorem eq_of_key {c : List Row} (nd : (c.map (·.key)).Nodup) {a b : Row} (ha : a ∈ c) (hb : b ∈ c)
    (hk : a.key = b.key) : a = b := by
  have h1 := cacheGet_eq nd ha
  have h2 := cacheGet_eq nd hb
  rw [hk, h2] at h1
  simpa using h1.symm

theorem evict_lru {size : Row → Nat} {max fuel : Nat} {c : List Row} (nd : (c.map (·.key)).Nodup)
    {r q : Row} (hr : r ∈ c) (hn : r ∉ evict size max fuel c) (hq : q ∈ evict size max fuel c) :
    r.lastUsed ≤ q.lastUsed := by
  induction fuel generalizing c with
  | zero => exact absurd hr hn
  | succ n ih =>
    simp only [evict] at hn hq
    split at hn
    · rename_i hgt
      rw [if_pos hgt] at hq
      by_cases hd : r ∈ deleteOldest c
      · exact ih (nodup_deleteOldest nd) hd hn hq
      · have hq' := evict_sub hq
        unfold deleteOldest at hd hq'
        cases ho : oldest c with
        | none => rw [ho] at hd; exact absurd hr hd
        | some m =>
          rw [ho] at hd hq'
          dsimp only at hd hq'
          obtain ⟨hm, hmin⟩ := oldest_spec ho
          have hk : r.key = m.key := by
            by_cases hk : r.key = m.key
            · exact hk
            · exact absurd (mem_cacheDel.mpr ⟨hr, hk⟩) hd
          have := eq_of_key nd hr hm hk
          subst this
          exact hmin q (mem_cacheDel.mp hq').1
    · exact absurd hr hn

/-- A row is only evicted while the rows left need more than the limit together with one more row. -/
theorem evict_needed {size : Row → Nat} {max fuel : Nat} {c : List Row} (nd : (c.map (·.key)).Nodup)
    {r : Row} (hr : r ∈ c) (hn : r ∉ evict size max fuel c) :
    ∃ m ∈ c, m ∉ evict size max fuel c ∧ max < size m + totalSize size (evict size max fuel c) := by
  induction fuel generalizing c r with
  | zero => exact absurd hr hn
  | succ n ih =>
    simp only [evict] at hn ⊢
    split at hn
    · rename_i hgt
      rw [if_pos hgt]
      cases ho : oldest c with
      | none => rw [oldest_none.mp ho] at hr; simp at hr
      | some m =>
        have hm := (oldest_spec ho).1
        have hdel : deleteOldest c = cacheDel c m.key := by unfold deleteOldest; rw [ho]
        rw [hdel] at hn ⊢
        by_cases hall : ∀ x ∈ cacheDel c m.key, x ∈ evict size max n (cacheDel c m.key)
        · -- nothing else was evicted: the loop stopped after this row
          refine ⟨m, hm, ?_, ?_⟩
          · intro hm'
            exact (mem_cacheDel.mp (evict_sub hm')).2 rfl
          · have hsz := totalSize_cacheDel (size := size) nd hm
            have : evict size max n (cacheDel c m.key) = cacheDel c m.key := by
              cases n with
              | zero => rfl
              | succ n =>
                simp only [evict] at hall ⊢
                split
                · rename_i hg2
                  exfalso
                  rw [if_pos hg2] at hall
                  cases ho2 : oldest (cacheDel c m.key) with
                  | none =>
                    rw [oldest_none.mp ho2] at hg2
                    simp [totalSize] at hg2
                  | some m2 =>
                    have hm2 := (oldest_spec ho2).1
                    have := evict_sub (hall m2 hm2)
                    unfold deleteOldest at this
                    rw [ho2] at this
                    exact (mem_cacheDel.mp this).2 rfl
                · rfl
            rw [this]; omega
        · have : ∃ x, x ∈ cacheDel c m.key ∧ x ∉ evict size max n (cacheDel c m.key) := by
            exact Classical.byContradiction fun hno => hall fun x hx =>
              Classical.byContradiction fun hx' => hno ⟨x, hx, hx'⟩
          obtain ⟨x, hx, hx'⟩ := this
          obtain ⟨y, hy, hy', hsz⟩ := ih (nodup_cacheDel nd) hx hx'
          exact ⟨y, (mem_cacheDel.mp hy).1, hy', hsz⟩
    · exact absurd hr hn

theorem mem_deleteExpired {lt : Option Int} {now : Int} {c : List Row} {r : Row} :
    r ∈ deleteExpired lt now c ↔ r ∈ c ∧ Fresh lt now r := by
  unfold deleteExpired Fresh
  rw [List.mem_filter]
  apply and_congr_right
  intro _
  cases lt <;> cases h : r.info.cacheExpiry <;> simp <;> omega

theorem nodup_deleteExpired {lt : Option Int} {now : Int} {c : List Row}
    (nd : (c.map (·.key)).Nodup) : ((deleteExpired lt now c).map (·.key)).Nodup := by
  unfold deleteExpired
  exact nd.sublist (List.Sublist.map _ List.filter_sublist)

theorem nodup_cleanup {size : Row → Nat} {lt : Option Int} {max : Option Nat} {now : Int}
    {c : List Row} (nd : (c.map (·.key)).Nodup) :
    ((cleanup size lt max now c).map (·.key)).Nodup := by
  unfold cleanup
  cases max with
  | none => exact nodup_deleteExpired nd
  | some m => exact nodup_evict (nodup_deleteExpired nd)

theorem mem_cleanup {size : Row → Nat} {lt : Option Int} {max : Option Nat} {now : Int}
    {c : List Row} {r : Row} (h : r ∈ cleanup size lt max now c) : r ∈ c ∧ Fresh lt now r := by
  unfold cleanup at h
  cases max with
  | none => exact mem_deleteExpired.mp h
  | some m => exact mem_deleteExpired.mp (evict_sub h)

/-! ### Keys -/

theorem standard_prefix_free :
    ∀ a ∈ standardTypes, ∀ b ∈ standardTypes, a.isPrefixOf b = true → a = b := by decide +kernel

theorem key_injective {a b : Token} (ha : Standard a) (hb : Standard b) (h : key a = key b) : a = b := by
  have hp : a.type = b.type := by
    unfold key at h
    rcases List.append_eq_append_iff.mp h with ⟨x, hx, _⟩ | ⟨x, hx, _⟩
    · exact standard_prefix_free _ ha _ hb (by rw [List.isPrefixOf_iff_prefix, hx]; exact ⟨x, rfl⟩)
    · exact (standard_prefix_free _ hb _ ha (by rw [List.isPrefixOf_iff_prefix, hx]; exact ⟨x, rfl⟩)).symm
  cases a; cases b
  unfold key at h
  simp only at hp h ⊢
  subst hp
  have := List.append_cancel_left h
  subst this; rfl

/-! ### Local list -/

theorem hasDuplicate_false {es : List (Token × Option Info)} (h : hasDuplicate es = false) :
    es.Pairwise (fun a b => ¬ SameToken a.1 b.1) := by
  induction es with
  | nil => exact List.Pairwise.nil
  | cons e es ih =>
    simp only [hasDuplicate, Bool.or_eq_false_iff, List.any_eq_false] at h
    refine List.Pairwise.cons ?_ (ih h.2)
    intro f hf hs
    have := h.1 f hf
    simp [ciEq] at this
    exact this hs.1 hs.2

theorem hasDuplicate_true {es : List (Token × Option Info)}
    (h : es.Pairwise (fun a b => ¬ SameToken a.1 b.1)) : hasDuplicate es = false := by
  induction es with
  | nil => rfl
  | cons e es ih =>
    rw [List.pairwise_cons] at h
    simp only [hasDuplicate, Bool.or_eq_false_iff, List.any_eq_false]
    refine ⟨?_, ih h.2⟩
    intro f hf
    have := h.1 f hf
    unfold SameToken at this
    simp only [ciEq, Bool.and_eq_true, decide_eq_true_eq]
    exact this

theorem hasDuplicate_iff {es : List (Token × Option Info)} :
    hasDuplicate es = false ↔ es.Pairwise (fun a b => ¬ SameToken a.1 b.1) :=
  ⟨hasDuplicate_false, hasDuplicate_true⟩

theorem pairwise_keys {es : List (Token × Option Info)} (hs : ∀ e ∈ es, Standard e.1)
    (h : es.Pairwise (fun a b => ¬ SameToken a.1 b.1)) :
    es.Pairwise (fun a b => key a.1 ≠ key b.1) := by
  induction es with
  | nil => exact List.Pairwise.nil
  | cons e es ih =>
    rw [List.pairwise_cons] at h ⊢
    refine ⟨?_, ih (fun x hx => hs x (List.mem_cons_of_mem _ hx)) h.2⟩
    intro f hf hk
    have := key_injective (hs e List.mem_cons_self) (hs f (List.mem_cons_of_mem _ hf)) hk
    apply h.1 f hf
    rw [this]; exact ⟨rfl, rfl⟩

theorem applyAll_append (db : Db) (a b : List Write) :
    applyAll db (a ++ b) = applyAll (applyAll db a) b := by
  unfold applyAll; rw [List.foldl_append]

theorem applyAll_cons (db : Db) (w : Write) (ws : List Write) :
    applyAll db (w :: ws) = applyAll (w.apply db) ws := rfl

theorem entryWrite_version (db : Db) (e : Token × Option Info) :
    ((entryWrite e).apply db).version = db.version ∧ ((entryWrite e).apply db).cache = db.cache := by
  unfold entryWrite
  split <;> exact ⟨rfl, rfl⟩

theorem entries_version (db : Db) (es : List (Token × Option Info)) :
    (applyAll db (es.map entryWrite)).version = db.version ∧
    (applyAll db (es.map entryWrite)).cache = db.cache := by
  induction es generalizing db with
  | nil => exact ⟨rfl, rfl⟩
  | cons e es ih =>
    rw [List.map_cons, applyAll_cons]
    obtain ⟨h1, h2⟩ := ih ((entryWrite e).apply db)
    obtain ⟨h3, h4⟩ := entryWrite_version db e
    exact ⟨h1.trans h3, h2.trans h4⟩

theorem mem_entryWrite {db : Db} {e : Token × Option Info} {k : Str} {i : Info} :
    (k, i) ∈ ((entryWrite e).apply db).list ↔
      (key e.1 = k ∧ e.2 = some i) ∨ (key e.1 ≠ k ∧ (k, i) ∈ db.list) := by
  obtain ⟨t, o⟩ := e
  cases o with
  | none =>
    simp only [entryWrite, Write.apply, List.mem_filter, Bool.not_eq_true', beq_eq_false_iff_ne, ne_eq,
      reduceCtorEq, and_false, false_or]
    constructor
    · rintro ⟨h1, h2⟩; exact ⟨fun h => h2 h.symm, h1⟩
    · rintro ⟨h1, h2⟩; exact ⟨h2, fun h => h1 h.symm⟩
  | some j =>
    simp only [entryWrite, Write.apply, List.mem_append, List.mem_filter, Bool.not_eq_true',
      beq_eq_false_iff_ne, ne_eq, List.mem_singleton, Prod.mk.injEq, Option.some.injEq]
    constructor
    · rintro (⟨h1, h2⟩ | ⟨h1, h2⟩)
      · exact Or.inr ⟨fun h => h2 h.symm, h1⟩
      · exact Or.inl ⟨h1.symm, h2.symm⟩
    · rintro (⟨h1, h2⟩ | ⟨h1, h2⟩)
      · exact Or.inr ⟨h1.symm, h2.symm⟩
      · exact Or.inl ⟨h2, fun h => h1 h.symm⟩

theorem mem_entries {db : Db} {es : List (Token × Option Info)}
    (hp : es.Pairwise (fun a b => key a.1 ≠ key b.1)) {k : Str} {i : Info} :
    (k, i) ∈ (applyAll db (es.map entryWrite)).list ↔
      (∃ e ∈ es, key e.1 = k ∧ e.2 = some i) ∨
      ((∀ e ∈ es, key e.1 ≠ k) ∧ (k, i) ∈ db.list) := by
  induction es generalizing db with
  | nil => simp [applyAll]
  | cons e es ih =>
    rw [List.pairwise_cons] at hp
    rw [List.map_cons, applyAll_cons, ih hp.2, mem_entryWrite]
    constructor
    · rintro (⟨f, hf, h1, h2⟩ | ⟨h1, h2 | h2⟩)
      · exact Or.inl ⟨f, List.mem_cons_of_mem _ hf, h1, h2⟩
      · exact Or.inl ⟨e, List.mem_cons_self, h2⟩
      · refine Or.inr ⟨?_, h2.2⟩
        intro f hf
        rcases List.mem_cons.mp hf with rfl | hf
        · exact h2.1
        · exact h1 f hf
    · rintro (⟨f, hf, h1, h2⟩ | ⟨h1, h2⟩)
      · rcases List.mem_cons.mp hf with rfl | hf
        · refine Or.inr ⟨?_, Or.inl ⟨h1, h2⟩⟩
          intro g hg hgk
          exact hp.1 g hg (h1.trans hgk.symm)
        · exact Or.inl ⟨f, hf, h1, h2⟩
      · exact Or.inr ⟨fun f hf => h1 f (List.mem_cons_of_mem _ hf),
          Or.inr ⟨h1 e List.mem_cons_self, h2⟩⟩

/-- Membership after any statements: an entry was there before or was put by one of them. -/
theorem mem_applyAll {db : Db} {ws : List Write} {k : Str} {i : Info}
    (h : (k, i) ∈ (applyAll db ws).list) : (k, i) ∈ db.list ∨ Write.put k i ∈ ws := by
  induction ws generalizing db with
  | nil => exact Or.inl h
  | cons w ws ih =>
    rw [applyAll_cons] at h
    rcases ih h with h | h
    · cases w with
      | clear => simp [Write.apply] at h
      | put k' j =>
        simp only [Write.apply, List.mem_append, List.mem_filter, List.mem_singleton,
          Prod.mk.injEq] at h
        rcases h with h | h
        · exact Or.inl h.1
        · obtain ⟨rfl, rfl⟩ := h; exact Or.inr List.mem_cons_self
      | del k' =>
        simp only [Write.apply, List.mem_filter] at h
        exact Or.inl h.1
      | version v => exact Or.inl h
    · exact Or.inr (List.mem_cons_of_mem _ h)

theorem nodup_write {db : Db} (w : Write) (h : (db.list.map (·.1)).Nodup) :
    ((w.apply db).list.map (·.1)).Nodup := by
  cases w with
  | clear => simp [Write.apply]
  | put k i =>
    simp only [Write.apply]
    rw [List.map_append, List.nodup_append]
    refine ⟨h.sublist (List.Sublist.map _ List.filter_sublist), by simp, ?_⟩
    intro a ha b hb
    simp only [List.map_cons, List.map_nil, List.mem_singleton] at hb
    subst hb
    simp only [List.mem_map, List.mem_filter] at ha
    obtain ⟨e, ⟨_, he⟩, rfl⟩ := ha
    simpa using he
  | del k => exact h.sublist (List.Sublist.map _ List.filter_sublist)
  | version v => exact h

theorem nodup_applyAll {db : Db} (ws : List Write) (h : (db.list.map (·.1)).Nodup) :
    ((applyAll db ws).list.map (·.1)).Nodup := by
  induction ws generalizing db with
  | nil => exact h
  | cons w ws ih => exact ih (nodup_write w h)

theorem cache_applyAll (db : Db) (ws : List Write) : (applyAll db ws).cache = db.cache := by
  induction ws generalizing db with
  | nil => rfl
  | cons w ws ih =>
    rw [applyAll_cons, ih]
    cases w <;> rfl

theorem insertAll_works {ok : Write → Bool} (h : Works ok) (es : List (Token × Option Info)) :
    insertAll ok es = (true, es.map entryWrite) := by
  unfold insertAll
  rw [Prod.mk.injEq]
  exact ⟨List.all_eq_true.mpr fun w _ => h w, List.filter_eq_self.mpr fun w _ => h w⟩

/-- The answer and the statements of a request, if the database works. -/
theorem sendList_works {ok : Write → Bool} (h : Works ok) (stored : Int) (r : ListReq) :
    sendList true ok stored r =
      if r.version ≤ 0 then (.failed, [])
      else match r.update with
        | .full =>
          if r.entries = [] then (.accepted, [.clear, .version r.version])
          else if hasDuplicate r.entries = true ∨ lacksInfo r.entries = true then (.failed, [])
          else (.accepted, .clear :: r.entries.map entryWrite ++ [.version r.version])
        | .differential =>
          if r.version ≤ stored then (.versionMismatch, [])
          else if r.entries = [] then (.accepted, [.version r.version])
          else if hasDuplicate r.entries = true then (.failed, [])
          else (.accepted, r.entries.map entryWrite ++ [.version r.version]) := by
  unfold sendList applyList
  simp only [if_true]
  by_cases h0 : r.version ≤ 0
  · rw [if_pos h0, if_pos h0]; simp
  · rw [if_neg h0, if_neg h0]
    cases r.update with
    | full =>
      simp only [applyFull, List.isEmpty_iff, h .clear, h (.version r.version), insertAll_works h,
        Bool.or_eq_true, if_true]
      by_cases h1 : r.entries = []
      · simp [h1]
      · simp only [if_neg h1]
        by_cases h2 : hasDuplicate r.entries = true ∨ lacksInfo r.entries = true
        · simp [h2]
        · simp [h2]
    | differential =>
      simp only [applyDifferential, List.isEmpty_iff, h (.version r.version), insertAll_works h,
        if_true]
      by_cases h1 : r.version ≤ stored
      · simp [h1]
      · simp only [if_neg h1]
        by_cases h2 : r.entries = []
        · simp [h2]
        · simp only [if_neg h2]
          by_cases h3 : hasDuplicate r.entries = true
          · simp [h3]
          · simp [h3]

theorem lacksInfo_iff {es : List (Token × Option Info)} :
    lacksInfo es = true ↔ ∃ e ∈ es, e.2 = none := by
  unfold lacksInfo
  simp [List.any_eq_true, Option.isNone_iff_eq_none]

end Verif.Auth
