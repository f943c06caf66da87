import Verif.Auth.Theorems
/-! What the station erases when the CSMS asks it to forget a customer (`clear_customer_information` of `lib/ocpp/v2/functional_blocks/diagnostics.cpp` l.406-424) or to clear the
cache (`handle_clear_cache_req` of authorization.cpp), what it tells about a customer (`get_customer_information`, l.376-404), and what it still decides from the cache. -/

namespace Verif.Auth

/-! ## Model -/

/-- The part of `get_customer_information` (diagnostics.cpp l.376-404) that comes from the cache. Simplified: the row of the cache instead of its text; the text of the application
is left out. -/
def customerRow (db : Db) (t : Token) : Option Row := cacheGet db.cache (key t)

/-! ## Specification -/

/-- The reasons for which a token may be accepted without the cache. -/
inductive WithoutCache (cfg : Config) (env : Env) (t : Token) (db : Db) (sent : List AuthReq) : Prop
  | exempt (h : Exempt cfg t)
  | csms (r : AuthReq) (a : Resp) (sent : r ∈ sent) (token : r.token = t) (answer : env.csms r = some a) (ok : a.info.status = .accepted)
  | list (i : Info) (on : cfg.listEnabled = true) (entry : Listed db t i) (ok : i.status = .accepted)
  | offline (off : env.online = false) (on : cfg.offlineUnknown = true)

/-- What erases the row of a token. -/
def Erases (t : Token) : Op → Prop
  | .forget u => u = t
  | .clearCache enabled => enabled = true
  | _ => False

/-! ## Lemmas -/

theorem run_append (db : Db) (a b : List Op) : run db (a ++ b) = run (run db a) b := List.foldl_append ..

theorem saidAll_cons (db : Db) (o : Op) (os : List Op) : saidAll db (o :: os) = said db o ++ saidAll (step db o) os := rfl

/-- Rows of a key that has no row come from what the CSMS states afterwards, or are the station's own Unknown. -/
theorem rows_since (k : Str) : ∀ (ops : List Op) (db : Db) (S : List (Token × Info)), (∀ q ∈ db.cache, q.key = k → Stated S q) →
    ∀ q ∈ (run db ops).cache, q.key = k → Stated (S ++ saidAll db ops) q := by
  intro ops
  induction ops with
  | nil =>
    intro db S hS q hq hk
    simpa [saidAll] using hS q hq hk
  | cons o os ih =>
    intro db S hS q hq hk
    have h1 : ∀ p ∈ (step db o).cache, p.key = k → Stated (S ++ said db o) p := by
      intro p hp hpk
      rcases step_stated hp with ⟨x, hx, hxk, hi⟩ | hst
      · rcases hS x hx (hxk.trans hpk) with h | ⟨y, hy, h1, h2⟩
        · exact Or.inl (by rw [← hi]; exact h)
        · exact Or.inr ⟨y, List.mem_append_left _ hy, h1.trans hxk, h2.trans hi⟩
      · rcases hst with h | ⟨y, hy, h1, h2⟩
        · exact Or.inl h
        · exact Or.inr ⟨y, List.mem_append_right _ hy, h1, h2⟩
    have := ih (step db o) (S ++ said db o) h1 q hq hk
    simpa [saidAll_cons, List.append_assoc] using this

theorem erased_rows (db : Db) (t : Token) (e : Op) (he : Erases t e) : ∀ q ∈ (step db e).cache, q.key ≠ key t := by
  intro q hq
  cases e with
  | forget u =>
    have hu : u = t := he
    rw [hu] at hq
    exact (mem_cacheDel.mp hq).2
  | clearCache enabled =>
    have hu : enabled = true := he
    simp [step, hu] at hq
  | _ => exact absurd he (fun h => h)

/-! ## Theorems -/

/-- Once a token is erased the station tells nothing about it, and later only what the CSMS has stated about a token of this key since then, or its own Unknown. Missing: the same
token in another spelling (`C260_violated`), and errors of the database. -/
theorem C260_told_partial (before after : List Op) (t : Token) (e : Op) (he : Erases t e) :
    customerRow (run {} (before ++ [e])) t = none ∧
    ∀ r, customerRow (run {} (before ++ [e] ++ after)) t = some r →
      r.info = .only .unknown ∨ ∃ u i, (u, i) ∈ saidAll (run {} (before ++ [e])) after ∧ key u = key t ∧ i = r.info := by
  have h0 : ∀ q ∈ (run {} (before ++ [e])).cache, q.key ≠ key t := by
    rw [run_append]
    exact erased_rows _ t e he
  constructor
  · cases h : customerRow (run {} (before ++ [e])) t with
    | none => rfl
    | some r => exact absurd (cacheGet_mem h).2 (h0 r (cacheGet_mem h).1)
  · intro r hr
    rw [run_append] at hr
    obtain ⟨hm, hk⟩ := cacheGet_mem hr
    rcases rows_since (key t) after _ [] (fun q hq hqk => absurd hqk (h0 q hq)) r hm hk with h | ⟨p, hp, h1, h2⟩
    · exact Or.inl h
    · exact Or.inr ⟨p.1, p.2, by simpa using hp, h1.trans hk, h2⟩

/-- Once a token is erased it is accepted only for a reason other than the cache, unless the CSMS has accepted a token of this key since then. Missing: as above. -/
theorem C260_accepted_partial (before after : List Op) (t : Token) (e : Op) (he : Erases t e) (cfg : Config) (env : Env) (cert : Option Str) (ocsp : Option (List Nat))
    (h : (validate cfg env t cert ocsp (run {} (before ++ [e] ++ after))).resp.info.status = .accepted) :
    WithoutCache cfg env t (run {} (before ++ [e] ++ after)) (validate cfg env t cert ocsp (run {} (before ++ [e] ++ after))).sent ∨
    ∃ u i, (u, i) ∈ saidAll (run {} (before ++ [e])) after ∧ key u = key t ∧ i.status = .accepted := by
  cases C24_justified cfg env t cert ocsp _ h with
  | exempt h => exact Or.inl (.exempt h)
  | csms r a h1 h2 h3 h4 => exact Or.inl (.csms r a h1 h2 h3 h4)
  | list i h1 h2 h3 h4 h5 => exact Or.inl (.list i h1 h3 h4)
  | offline h1 h2 h3 h4 => exact Or.inl (.offline h1 h2)
  | cache r on permitted row hk fresh ok contract =>
    have h0 : ∀ q ∈ (run {} (before ++ [e])).cache, q.key ≠ key t := by
      rw [run_append]
      exact erased_rows _ t e he
    rw [run_append] at row
    rcases rows_since (key t) after _ [] (fun q hq hqk => absurd hqk (h0 q hq)) r row hk with h | ⟨p, hp, h1, h2⟩
    · rw [h] at ok
      exact absurd ok (by decide)
    · exact Or.inr ⟨p.1, p.2, by simpa using hp, h1.trans hk, by rw [h2]; exact ok⟩

/-- Forgetting a customer leaves the rows of all other keys, and the local list, as they are. -/
theorem C260_others (db : Db) (t : Token) (r : Row) (hk : r.key ≠ key t) :
    (r ∈ (step db (.forget t)).cache ↔ r ∈ db.cache) ∧ (step db (.forget t)).list = db.list ∧ (step db (.forget t)).version = db.version :=
  ⟨⟨fun h => (mem_cacheDel.mp h).1, fun h => mem_cacheDel.mpr ⟨h, hk⟩⟩, rfl, rfl⟩

/-- A token that was cached, is told, is erased, and is then neither told nor accepted. -/
example : (customerRow (run {} exOps) exTok).isSome = true ∧ customerRow (run {} (exOps ++ [.forget exTok])) exTok = none ∧
    (validate exCfg (exEnv true none) exTok none none (run {} exOps)).resp.info.status = .accepted ∧
    (validate exCfg (exEnv true none) exTok none none (run {} (exOps ++ [.forget exTok] ++ []))).resp.info.status ≠ .accepted ∧
    (validate exCfg (exEnv true (some { info := yes })) exTok none none (run {} (exOps ++ [.forget exTok] ++ []))).resp.info.status = .accepted := by decide

/-- A token that was cached in one spelling and is erased in the other, which OCPP does not distinguish: the station still tells about it, and accepts it from the cache without
a request. -/
theorem C260_violated :
    ∃ (before : List Op) (t u : Token), SameToken t u ∧ (customerRow (run {} (before ++ [.forget t])) u).isSome = true ∧
      (validate exCfg (exEnv true none) u none none (run {} (before ++ [.forget t]))).resp.info.status = .accepted ∧
      (validate exCfg (exEnv true none) u none none (run {} (before ++ [.forget t]))).sent = [] :=
  ⟨exOps, ⟨iso14443, ['A','B']⟩, exTok, by unfold SameToken; decide, by decide, by decide, by decide⟩

end Verif.Auth
