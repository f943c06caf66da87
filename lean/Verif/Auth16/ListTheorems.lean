import Verif.Auth16.Theorems
/-!
Properties C111 and C112: the local authorization list of OCPP 1.6.
-/
set_option linter.constructorNameAsVariable false
namespace Verif.Auth16

theorem insertAll_works {ok : Write → Bool} (h : Works ok) (es : List (Str × Option Info)) :
    insertAll ok es = (true, es.map entryWrite) := by
  unfold insertAll
  refine Prod.ext ?_ ?_
  · simp only [List.all_eq_true]
    exact fun w _ => h w
  · simp only [List.filter_eq_self]
    exact fun w _ => h w

theorem versionThenEntries_works {ok : Write → Bool} (h : Works ok) (v : Int)
    (es : List (Str × Option Info)) :
    versionThenEntries ok v es = (.accepted, .version v :: es.map entryWrite) := by
  unfold versionThenEntries
  rw [if_pos (h _), insertAll_works h]
  rfl

/-- The handler when no statement fails. -/
theorem sendList_works {cfg : Config} {ok : Write → Bool} (h : Works ok) (stored : Int) (r : ListReq) :
    sendList cfg ok false (some stored) r =
      if cfg.listProfile = false ∨ cfg.listEnabled = false then (.notSupported, [])
      else if r.full = true then
        match r.entries with
        | some es => (.accepted, .clear :: .version r.version :: es.map entryWrite)
        | none => (.accepted, [.version r.version, .clear])
      else
        match r.entries with
        | none => (.failed, [])
        | some es =>
          if stored < r.version then (.accepted, .version r.version :: es.map entryWrite)
          else (.versionMismatch, []) := by
  unfold sendList
  simp only [versionThenEntries_works h, h .clear, h (.version r.version), if_true, Bool.false_eq_true,
    if_false]
  cases cfg.listProfile <;> cases cfg.listEnabled <;> simp <;> rfl

theorem applyAll_version (db : Db) (es : List (Str × Option Info)) :
    (applyAll db (es.map entryWrite)).version = db.version := by
  induction es generalizing db with
  | nil => rfl
  | cons e es ih =>
    obtain ⟨k, o⟩ := e
    simp only [List.map_cons, applyAll, List.foldl_cons] at ih ⊢
    rw [ih]
    cases o <;> rfl

theorem saidBy_append (es : List (Str × Option Info)) (e : Str × Option Info) (k : Str) :
    saidBy (es ++ [e]) k = if e.1 = k then some e.2 else saidBy es k := by
  unfold saidBy
  rw [List.reverse_append]
  simp only [List.reverse_cons, List.reverse_nil, List.nil_append, List.singleton_append,
    List.find?_cons]
  by_cases h : e.1 = k
  · simp [h]
  · have : (e.1 == k) = false := by simpa using h
    simp [this, h]

/-- The rows after all entries have been written. -/
theorem get_applyAll (db : Db) (es : List (Str × Option Info)) (k : Str) :
    get (applyAll db (es.map entryWrite)).list k = (saidBy es k).getD (get db.list k) := by
  have gen : ∀ (rs : List (Str × Option Info)) (k : Str),
      get (applyAll db (rs.reverse.map entryWrite)).list k = (saidBy rs.reverse k).getD (get db.list k) := by
    intro rs
    induction rs with
    | nil => intro k; rfl
    | cons e rs ih =>
      intro k
      rw [List.reverse_cons, saidBy_append, List.map_append]
      unfold applyAll at ih ⊢
      rw [List.foldl_append]
      obtain ⟨k', o⟩ := e
      cases o with
      | none =>
        simp only [List.map_cons, List.map_nil, List.foldl_cons, List.foldl_nil, entryWrite, apply]
        rw [get_del, ih]
        by_cases hk : k = k'
        · subst hk; simp
        · have : ¬ k' = k := fun h => hk h.symm
          simp [hk, this]
      | some i =>
        simp only [List.map_cons, List.map_nil, List.foldl_cons, List.foldl_nil, entryWrite, apply]
        rw [get_put, ih]
        by_cases hk : k = k'
        · subst hk; simp
        · have : ¬ k' = k := fun h => hk h.symm
          simp [hk, this]
  have := gen es.reverse k
  rwa [List.reverse_reverse] at this

/-! ### C111: the version protocol -/

/-- C111, which answer is given when no statement fails: NotSupported without the feature or with the
list disabled; VersionMismatch for a differential update whose version is not greater than the stored
one; Failed for a differential update without entries; Accepted otherwise. -/
theorem C111_answer (cfg : Config) (ok : Write → Bool) (hok : Works ok) (stored : Int) (r : ListReq) :
    ((sendList cfg ok false (some stored) r).1 = .notSupported ↔
      cfg.listProfile = false ∨ cfg.listEnabled = false) ∧
    (cfg.listProfile = true → cfg.listEnabled = true →
      ((sendList cfg ok false (some stored) r).1 = .versionMismatch ↔
        r.full = false ∧ r.entries ≠ none ∧ r.version ≤ stored) ∧
      ((sendList cfg ok false (some stored) r).1 = .failed ↔ r.full = false ∧ r.entries = none)) := by
  rw [sendList_works hok]
  obtain ⟨f, v, es⟩ := r
  constructor
  · by_cases hs : cfg.listProfile = false ∨ cfg.listEnabled = false
    · simp [hs]
    · rw [if_neg hs]
      simp only [hs, iff_false]
      cases f <;> cases es <;> simp
      split <;> simp
  · intro h1 h2
    rw [if_neg (by simp [h1, h2])]
    cases f with
    | true => cases es <;> simp
    | false =>
      cases es with
      | none => simp
      | some es =>
        by_cases hv : stored < v
        · simp [hv]
        · simp [hv]; omega

def listCfg : Config := exCfg

def fullReq : ListReq :=
  { full := true, version := 5, entries := some [(tagA, some yes), (tagB, some no), (tagA, none)] }

def diffReq : ListReq :=
  { full := false, version := 5, entries := some [(tagA, some yes), (tagB, none)] }

def allOk : Write → Bool := fun _ => true

example : Works allOk := fun _ => rfl

example : (sendList exCfg allOk false (some 3) diffReq).1 = .accepted ∧
    (sendList exCfg allOk false (some 5) diffReq).1 = .versionMismatch := by decide

/-- C111: an update that is not accepted changes nothing, when no statement fails. -/
theorem C111_refused_unchanged (cfg : Config) (ok : Write → Bool) (hok : Works ok) (db : Db) (v : Int)
    (hv : db.version = some v) (r : ListReq)
    (h : (sendList cfg ok false db.version r).1 ≠ .accepted) : afterList cfg ok false db r = db := by
  unfold afterList
  rw [hv, sendList_works hok] at h ⊢
  split
  · rfl
  · rename_i hs
    rw [if_neg hs] at h
    split
    · rename_i hf
      rw [if_pos hf] at h
      cases he : r.entries <;> simp [he] at h
    · rename_i hf
      rw [if_neg hf] at h
      cases he : r.entries with
      | none => rfl
      | some es =>
        simp only [he] at h ⊢
        split
        · rename_i hlt; rw [if_pos hlt] at h; simp at h
        · rfl

/-- C111: an accepted full update makes the list exactly what the request says (the last entry for a
tag counts), with its version. -/
theorem C111_full (cfg : Config) (ok : Write → Bool) (hok : Works ok) (db : Db) (v : Int)
    (hv : db.version = some v) (r : ListReq) (hf : r.full = true)
    (h : (sendList cfg ok false db.version r).1 = .accepted) :
    (afterList cfg ok false db r).version = some r.version ∧
    (afterList cfg ok false db r).cache = db.cache ∧
    ∀ k, get (afterList cfg ok false db r).list k = (saidBy (r.entries.getD []) k).getD none := by
  have hcache : ∀ (ws : List Write) (d : Db), (applyAll d ws).cache = d.cache := by
    intro ws
    induction ws with
    | nil => intro d; rfl
    | cons w ws ih =>
      intro d
      have := ih (apply d w)
      unfold applyAll at this ⊢
      rw [List.foldl_cons, this]
      cases w <;> rfl
  unfold afterList
  rw [hcache]
  rw [hv, sendList_works hok] at h ⊢
  split at h
  · simp at h
  · rename_i hs
    rw [if_neg hs, if_pos hf]
    cases he : r.entries with
    | none =>
      refine ⟨rfl, rfl, ?_⟩
      intro k
      simp [applyAll, apply, get, saidBy]
    | some es =>
      have hb : ∀ d, applyAll d (.clear :: .version r.version :: es.map entryWrite) =
          applyAll { d with list := [], version := some r.version } (es.map entryWrite) := fun d => rfl
      simp only [hb]
      refine ⟨by rw [applyAll_version], trivial, ?_⟩
      intro k
      rw [get_applyAll]
      simp [get]

example : (sendList exCfg allOk false exDb.version fullReq).1 = .accepted ∧
    get (afterList exCfg allOk false exDb fullReq).list tagB = some no ∧
    get (afterList exCfg allOk false exDb fullReq).list tagA = none := by decide

/-- C111: an accepted differential update has a greater version than the stored one, changes exactly the
tags it names, as it says, and stores its version. -/
theorem C111_differential (cfg : Config) (ok : Write → Bool) (hok : Works ok) (db : Db) (v : Int)
    (hv : db.version = some v) (r : ListReq) (hf : r.full = false)
    (h : (sendList cfg ok false db.version r).1 = .accepted) :
    v < r.version ∧ (afterList cfg ok false db r).version = some r.version ∧
    ∀ k, get (afterList cfg ok false db r).list k =
      (saidBy (r.entries.getD []) k).getD (get db.list k) := by
  unfold afterList
  rw [hv, sendList_works hok] at h ⊢
  split at h
  · simp at h
  · rename_i hs
    rw [if_neg hs, if_neg (by simp [hf])]
    rw [if_neg (by simp [hf])] at h
    cases he : r.entries with
    | none => simp [he] at h
    | some es =>
      simp only [he] at h ⊢
      split at h
      · rename_i hlt
        have hb : ∀ d, applyAll d (.version r.version :: es.map entryWrite) =
          applyAll { d with version := some r.version } (es.map entryWrite) := fun d => rfl
        rw [if_pos hlt]
        simp only [hb]
        refine ⟨hlt, by rw [applyAll_version], ?_⟩
        intro k
        rw [get_applyAll]
        rfl
      · simp at h

example : (sendList exCfg allOk false exDb.version diffReq).1 = .accepted ∧
    get (afterList exCfg allOk false exDb diffReq).list tagA = some yes := by decide

/-- C111: GetLocalListVersion reports -1 without the feature, 0 for an empty list and the stored version
otherwise, and changes nothing as long as there is a version. -/
theorem C111_reported (cfg : Config) (db : Db) (v : Int) (hv : db.version = some v) :
    (getVersion cfg db).2 = db ∧
    (getVersion cfg db).1 = some (if cfg.listProfile = false ∨ cfg.listEnabled = false then -1
      else if db.list = [] then 0 else v) := by
  unfold getVersion
  cases cfg.listProfile <;> cases cfg.listEnabled <;> simp [hv]
  split <;> simp

example : (getVersion exCfg exDb).1 = some 3 := by decide

/-- After every history there is a stored version, whatever failed or crashed. -/
theorem C111_version_present (ops : List Op) : (run {} ops).version ≠ none := by
  have keep : ∀ (ws : List Write) (d : Db), d.version ≠ none → (applyAll d ws).version ≠ none := by
    intro ws
    induction ws with
    | nil => intro d h; exact h
    | cons w ws ih =>
      intro d h
      unfold applyAll at ih ⊢
      rw [List.foldl_cons]
      refine ih _ ?_
      cases w <;> simp_all [apply]
  have aged : ∀ cfg env k db, (localStage cfg env k db).2.version = db.version := by
    intro cfg env k db
    have hc : ∀ d : Db, (cacheStage cfg env k d).2.version = d.version := by
      intro d
      have hv : (validateCache env d k).2.version = d.version := by
        unfold validateCache
        split
        · rfl
        · rfl
        · split
          · rfl
          · split
            · rfl
            · split <;> rfl
      unfold cacheStage
      split
      · cases hvv : validateCache env d k with
        | mk v e =>
          rw [hvv] at hv
          cases v with
          | none => exact hv
          | some b =>
            cases b with
            | false => exact hv
            | true =>
              simp only
              split <;> exact hv
      · rfl
    unfold localStage
    split
    · unfold listStage
      split
      · split
        · rfl
        · exact hc _
      · exact hc _
    · rfl
  have auth : ∀ cfg env k b db, (authorize cfg env k b db).db.version = db.version := by
    intro cfg env k b db
    have := aged cfg env k db
    unfold authorize
    cases hl : localStage cfg env k db with
    | mk o d =>
      rw [hl] at this
      cases o with
      | some o => exact this
      | none =>
        simp only
        split
        · exact this
        · unfold remote
          split
          · split <;> exact this
          · split <;> exact this
          · exact this
  have stp : ∀ db o, db.version ≠ none → (step db o).version ≠ none := by
    intro db o h
    cases o with
    | authorize cfg env k b => simp only [step, auth]; exact h
    | pnc cfg env p k =>
      simp only [step]
      unfold pncAuthorize
      split
      · exact h
      · split
        · exact h
        · split
          · exact h
          · split
            · split
              · unfold pncOnline
                split
                · split <;> exact h
                · split
                  · exact h
                  · split <;> exact h
              · unfold pncOffline
                split
                · split
                  · split
                    · unfold pncList
                      split <;> (simp only [auth]; exact h)
                    · exact h
                  · exact h
                  · exact h
                · exact h
            · exact h
    | startConf k i ok => simp only [step]; split <;> exact h
    | stopConf k i ok => simpa [step, authorizedIdTag] using h
    | clearCache cfg ok =>
      simp only [step, clearCache]
      split
      · split <;> exact h
      · exact h
    | sendList cfg ok rf r => exact keep _ _ h
    | sendListCrash n cfg ok rf r => exact keep _ _ h
    | getVersion cfg =>
      simp only [step, getVersion]
      split
      · exact h
      · split
        · exact h
        · split
          · exact h
          · simp [apply]
    | restart => simp [step, apply]
  have gen : ∀ (ops : List Op) (db : Db), db.version ≠ none → (run db ops).version ≠ none := by
    intro ops
    induction ops with
    | nil => intro db h; exact h
    | cons o os ih => intro db h; exact ih _ (stp db o h)
  exact gen ops {} (by simp)

/-- C111 is violated: the version reported for an empty list is 0 although the stored one is greater. A
differential update with a version greater than the reported one is then refused with VersionMismatch. -/
theorem C111_violated :
    ∃ (cfg : Config) (ops : List Op) (r : ListReq) (v : Int),
      (getVersion cfg (run {} ops)).1 = some v ∧ v < r.version ∧
      (sendList cfg allOk false (run {} ops).version r).1 = .versionMismatch :=
  ⟨exCfg, [.sendList exCfg allOk false { full := true, version := 9, entries := some [] }], diffReq, 0,
    by decide⟩

/-- C111 is violated: the configured maximum number of entries (LocalAuthListMaxLength,
SendLocalListMaxLength) is never checked; for every bound there is an accepted request after which the
list is longer. -/
theorem C111_length_violated (bound : Nat) :
    ∃ (r : ListReq), (sendList exCfg allOk false (some 0) r).1 = .accepted ∧
      bound < (afterList exCfg allOk false {} r).list.length := by
  let key (n : Nat) : Str := List.replicate n 'x'
  let es (n : Nat) : List (Str × Option Info) := (List.range n).map fun j => (key j, some yes)
  have hkey : ∀ a b, key a = key b → a = b := by
    intro a b h
    have := congrArg List.length h
    simpa [key] using this
  have hlist : ∀ n, (applyAll { list := [], version := some 1 } ((es n).map entryWrite)).list =
      (List.range n).map fun j => (key j, yes) := by
    intro n
    induction n with
    | zero => rfl
    | succ n ih =>
      have he : es (n + 1) = es n ++ [(key n, some yes)] := by
        simp only [es, List.range_succ, List.map_append, List.map_cons, List.map_nil]
      rw [he, List.map_append]
      unfold applyAll at ih ⊢
      rw [List.foldl_append]
      simp only [List.map_cons, List.map_nil, List.foldl_cons, List.foldl_nil, entryWrite, apply, put]
      rw [ih, List.range_succ, List.map_append]
      congr 1
      unfold del
      rw [List.filter_eq_self]
      intro x hx
      obtain ⟨j, hj, rfl⟩ := List.mem_map.mp hx
      have : j < n := List.mem_range.mp hj
      simp only [bne_iff_ne, ne_eq]
      intro h
      have := hkey _ _ h
      omega
  refine ⟨{ full := true, version := 1, entries := some (es (bound + 1)) }, ?_, ?_⟩
  · rw [sendList_works (ok := allOk) (fun _ => rfl)]
    rfl
  · unfold afterList
    rw [show (({} : Db).version) = some 0 from rfl, sendList_works (ok := allOk) (fun _ => rfl)]
    have hb : ∀ ws, applyAll {} (.clear :: .version 1 :: ws) =
        applyAll { list := [], version := some 1 } ws := fun _ => rfl
    simp only [exCfg, Bool.true_eq_false, or_self, if_false, if_true, hb]
    rw [hlist]
    simp

/-- C111 is violated when a statement fails: the answer is Failed, but the list has changed. -/
theorem C111_database_error_violated :
    ∃ (ok : Write → Bool) (db : Db) (r : ListReq),
      (sendList exCfg ok false db.version r).1 = .failed ∧ (afterList exCfg ok false db r).list ≠ db.list :=
  ⟨fun w => decide (w ≠ .put tagB no), exDb, fullReq, by decide⟩

/-! ### C112: power cuts -/

/-- C112 is violated: the version is stored before the entries. After a power cut in between, the tag that
the update blocks is still accepted, the version of the update is reported, and when the CSMS repeats the
update it is refused with VersionMismatch. -/
theorem C112_violated :
    ∃ (db : Db) (r : ListReq) (n : Nat),
      (sendList exCfg allOk false db.version r).1 = .accepted ∧
      get (afterList exCfg allOk false db r).list tagA = some no ∧
      get (crashedList n exCfg allOk false db r).list tagA = some yes ∧
      (getVersion exCfg (crashedList n exCfg allOk false db r)).1 = some r.version ∧
      (sendList exCfg allOk false (crashedList n exCfg allOk false db r).version r).1 =
        .versionMismatch :=
  ⟨{ list := [(tagA, yes)], version := some 3 },
    { full := false, version := 5, entries := some [(tagA, some no)] }, 1, by decide⟩

/-- C112, what holds: after a power cut during a differential update every row is the old one or what a
part of the update says, tags the update does not name keep their rows, and the version is the old one
(then nothing has changed) or the new one. -/
theorem C112_partial (cfg : Config) (ok : Write → Bool) (hok : Works ok) (db : Db) (v : Int)
    (hv : db.version = some v) (es : List (Str × Option Info)) (new : Int) (n : Nat) :
    let r : ListReq := { full := false, version := new, entries := some es }
    crashedList n cfg ok false db r = db ∨
    ((crashedList n cfg ok false db r).version = some new ∧
     ∃ es', es' <+: es ∧ ∀ k, get (crashedList n cfg ok false db r).list k =
       (saidBy es' k).getD (get db.list k)) := by
  intro r
  unfold crashedList
  rw [hv, sendList_works hok]
  by_cases hs : cfg.listProfile = false ∨ cfg.listEnabled = false
  · rw [if_pos hs]; left; simp [applyAll]
  · rw [if_neg hs, if_neg (by simp [r])]
    simp only [r]
    by_cases hlt : v < new
    · rw [if_pos hlt]
      cases n with
      | zero => left; simp [applyAll]
      | succ n =>
        right
        have hb : ∀ d, applyAll d ((Write.version new :: es.map entryWrite).take (n + 1)) =
            applyAll { d with version := some new } ((es.take n).map entryWrite) := by
          intro d
          rw [List.take_succ_cons, ← List.map_take]
          rfl
        simp only [hb]
        refine ⟨by rw [applyAll_version], es.take n, List.take_prefix n es, ?_⟩
        intro k
        rw [get_applyAll]
    · rw [if_neg hlt]; left; simp [applyAll]

example : ∃ n, (crashedList n exCfg allOk false exDb diffReq).version = some 5 := ⟨1, by decide⟩

/-! ### The primary keys -/

theorem readRow_nodup {t : Table} {k : Str} {now : Int} {a b : Bool} (h : (t.map (·.1)).Nodup) :
    ((readRow t k now a b).2.map (·.1)).Nodup := by
  unfold readRow
  split
  · exact h
  · split
    · exact h
    · split
      · exact h
      · split
        · split
          · exact h
          · exact nodup_put _ _ h
        · exact h

theorem validate_unique {env : Env} {db : Db} {k : Str} (h : UniqueKeys db) :
    UniqueKeys (validateCache env db k).2 := by
  have hr := readRow_nodup (k := k) (now := env.nowFirst) (a := env.fails .firstRead)
    (b := env.fails .firstWrite) h.2
  unfold validateCache
  cases hrr : readRow db.cache k env.nowFirst (env.fails .firstRead) (env.fails .firstWrite) with
  | mk r c =>
    rw [hrr] at hr
    cases r with
    | error => exact ⟨h.1, hr⟩
    | absent => exact ⟨h.1, hr⟩
    | found i =>
      simp only
      split
      · exact ⟨h.1, hr⟩
      · split
        · exact ⟨h.1, hr⟩
        · split
          · refine ⟨h.1, ?_⟩
            simp only
            split
            · exact hr
            · exact nodup_put _ _ hr
          · exact ⟨h.1, hr⟩

theorem cacheStage_unique {cfg : Config} {env : Env} {db : Db} {k : Str} (h : UniqueKeys db) :
    UniqueKeys (cacheStage cfg env k db).2 := by
  have hv := validate_unique (env := env) (k := k) h
  unfold cacheStage
  split
  · cases hvv : validateCache env db k with
    | mk v d =>
      rw [hvv] at hv
      cases v with
      | none => exact hv
      | some b =>
        cases b with
        | false => exact hv
        | true =>
          have hr := readRow_nodup (k := k) (now := env.nowSecond) (a := env.fails .secondRead)
            (b := env.fails .secondWrite) hv.2
          simp only at hr ⊢
          cases hrr : readRow d.cache k env.nowSecond (env.fails .secondRead) (env.fails .secondWrite) with
          | mk r c =>
            rw [hrr] at hr
            cases r <;> exact ⟨hv.1, hr⟩
  · exact h

theorem authorize_unique {cfg : Config} {env : Env} {db : Db} {k : Str} {b : Bool} (h : UniqueKeys db) :
    UniqueKeys (authorize cfg env k b db).db := by
  have hl : UniqueKeys (localStage cfg env k db).2 := by
    unfold localStage
    split
    · unfold listStage
      split
      · have hr := readRow_nodup (k := k) (now := env.nowList) (a := env.fails .listRead)
          (b := env.fails .listWrite) h.1
        cases hrr : readRow db.list k env.nowList (env.fails .listRead) (env.fails .listWrite) with
        | mk r l =>
          rw [hrr] at hr
          cases r with
          | error => exact cacheStage_unique ⟨hr, h.2⟩
          | absent => exact cacheStage_unique ⟨hr, h.2⟩
          | found i => exact ⟨hr, h.2⟩
      · exact cacheStage_unique h
    · exact h
  unfold authorize
  cases hll : localStage cfg env k db with
  | mk o d =>
    rw [hll] at hl
    cases o with
    | some o => exact hl
    | none =>
      simp only
      split
      · exact hl
      · unfold remote
        split
        · split
          · exact hl
          · exact ⟨hl.1, nodup_put _ _ hl.2⟩
        · split <;> exact hl
        · exact hl

theorem applyAll_unique (ws : List Write) (db : Db) (h : UniqueKeys db) : UniqueKeys (applyAll db ws) := by
  induction ws generalizing db with
  | nil => exact h
  | cons w ws ih =>
    unfold applyAll at ih ⊢
    rw [List.foldl_cons]
    apply ih
    cases w with
    | clear => exact ⟨by simp [apply], h.2⟩
    | version v => exact h
    | put k i => exact ⟨nodup_put _ _ h.1, h.2⟩
    | del k => exact ⟨nodup_del _ h.1, h.2⟩
    | ensureVersion => exact h

/-- The assumption `UniqueKeys` of the theorems above holds after every history. -/
theorem C109_reachable_unique (ops : List Op) : UniqueKeys (run {} ops) := by
  have stp : ∀ db o, UniqueKeys db → UniqueKeys (step db o) := by
    intro db o h
    cases o with
    | authorize cfg env k b => exact authorize_unique h
    | pnc cfg env p k =>
      simp only [step]
      unfold pncAuthorize
      split
      · exact h
      · split
        · exact h
        · split
          · exact h
          · split
            · split
              · unfold pncOnline
                split
                · split <;> exact h
                · split
                  · exact h
                  · split <;> exact h
              · unfold pncOffline
                split
                · split
                  · split
                    · unfold pncList
                      split <;> exact authorize_unique h
                    · exact h
                  · exact h
                  · exact h
                · exact h
            · exact h
    | startConf k i ok =>
      simp only [step]
      split
      · exact ⟨h.1, nodup_put _ _ h.2⟩
      · exact h
    | stopConf k i ok => simpa [step, authorizedIdTag] using h
    | clearCache cfg ok =>
      simp only [step, clearCache]
      split
      · split
        · exact ⟨h.1, by simp⟩
        · exact h
      · exact h
    | sendList cfg ok rf r => exact applyAll_unique _ _ h
    | sendListCrash n cfg ok rf r => exact applyAll_unique _ _ h
    | getVersion cfg =>
      simp only [step, getVersion]
      split
      · exact h
      · split
        · exact h
        · split
          · exact h
          · exact h
    | restart => exact h
  have gen : ∀ (ops : List Op) (db : Db), UniqueKeys db → UniqueKeys (run db ops) := by
    intro ops
    induction ops with
    | nil => intro db h; exact h
    | cons o os ih => intro db h; exact ih _ (stp db o h)
  exact gen ops {} ⟨by simp, by simp⟩

end Verif.Auth16
