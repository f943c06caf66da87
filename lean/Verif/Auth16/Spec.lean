import Verif.Auth16.Model
/-!
What the theorems about authorization of OCPP 1.6 say, apart from the model's own functions. Only data
types of the model and membership in its tables are used.
-/
set_option linter.constructorNameAsVariable false
namespace Verif.Auth16

/-- The configuration permits list and cache in the present connection state. -/
def LocalPermitted (cfg : Config) (env : Env) : Prop :=
  (cfg.preAuthorize = true ∧ env.ws = some true) ∨ (cfg.authorizeOffline = true ∧ env.ws ≠ some true)

/-- The expiry date, if any, has not passed. -/
def Fresh (i : Info) (now : Int) : Prop := ∀ e, i.expiry = some e → now < e

/-- The reasons for which a tag may be accepted. `sent` are the Authorize requests of this call. -/
inductive Justified (cfg : Config) (env : Env) (k : Str) (db : Db) (sent : List Str) : Prop
  /-- The CSMS accepted the tag in this call. -/
  | csms (i : Info) (sent : k ∈ sent) (answer : env.answer k = .conf i) (ok : i.status = .accepted)
  /-- The local list is enabled, may be used and accepts the tag. -/
  | list (i : Info) (on : cfg.listEnabled = true) (permitted : LocalPermitted cfg env)
      (entry : (k, i) ∈ db.list) (ok : i.status = .accepted) (fresh : Fresh i env.nowList)
  /-- The cache is enabled, may be used and accepts the tag. -/
  | cache (i : Info) (on : cfg.cache = some true) (permitted : LocalPermitted cfg env)
      (entry : (k, i) ∈ db.cache) (ok : i.status = .accepted) (fresh : Fresh i env.nowSecond)
  /-- The station is offline, may accept unknown tags and does not know the tag. -/
  | offline (off : env.answer k = .offline) (on : cfg.offlineUnknown = some true)
      (notListed : ∀ i, (k, i) ∉ db.list) (notCached : ∀ i, (k, i) ∉ db.cache)

/-- The weaker reasons for which the code accepts a tag: the cache need only be configured, even as
disabled, and a tag counts as unknown when list and cache do not decide. -/
inductive Reason (cfg : Config) (env : Env) (k : Str) (db : Db) (sent : List Str) : Prop
  | csms (i : Info) (sent : sent = [k]) (answer : env.answer k = .conf i) (ok : i.status = .accepted)
  | list (i : Info) (on : cfg.listEnabled = true) (permitted : LocalPermitted cfg env)
      (entry : (k, i) ∈ db.list) (ok : i.status = .accepted) (fresh : Fresh i env.nowList)
  | cache (i : Info) (on : cfg.cache.isSome = true) (permitted : LocalPermitted cfg env)
      (entry : (k, i) ∈ db.cache) (ok : i.status = .accepted) (fresh : Fresh i env.nowSecond)
      (unlisted : cfg.listEnabled = true → env.fails .listRead = false → env.fails .listWrite = false →
        ∀ j, (k, j) ∉ db.list)
  | offline (sent : sent = [k]) (off : env.answer k = .offline) (on : cfg.offlineUnknown = some true)
      (unlisted : LocalPermitted cfg env → cfg.listEnabled = true → env.fails .listRead = false →
        env.fails .listWrite = false → ∀ i, (k, i) ∉ db.list)

/-- Each key occurs once; the primary keys of the tables. -/
def UniqueKeys (db : Db) : Prop := (db.list.map (·.1)).Nodup ∧ (db.cache.map (·.1)).Nodup

/-- What a row says at the time `now`: a passed expiry date makes it Expired. -/
def Info.at (i : Info) (now : Int) : Info :=
  match i.expiry with
  | some e => if e ≤ now then { i with status := .expired } else i
  | none => i

/-! ### What the CSMS says about tags -/

/-- The CSMS states something about a tag, or the cache is cleared on its request. -/
inductive Event
  | said (k : Str) (i : Info) | cleared
  deriving DecidableEq, Repr

/-- The statements made in one step, by its messages: Authorize.conf, StartTransaction.conf,
StopTransaction.conf, and an accepted ClearCache. -/
def events (db : Db) : Op → List Event
  | .authorize cfg env k onlyLocal =>
    (authorize cfg env k onlyLocal db).sent.filterMap fun t =>
      match env.answer t with | .conf i => some (.said t i) | _ => none
  | .startConf k i _ => [.said k i]
  | .stopConf k i _ => [.said k i]
  | .clearCache cfg ok => if (clearCache cfg ok db).1 = some true then [.cleared] else []
  | _ => []

/-- All statements of a history. -/
def history (db : Db) : List Op → List Event
  | [] => []
  | o :: os => events db o ++ history (step db o) os

/-- The last statement about a tag since the cache was last cleared. -/
def remember (m : Str → Option Info) : Event → Str → Option Info
  | .said k i => fun t => if t = k then some i else m t
  | .cleared => fun _ => none

def remembered (es : List Event) : Str → Option Info := es.foldl remember (fun _ => none)

/-- The clock readings of a step. -/
def readings : Op → List Int
  | .authorize _ env _ _ => [env.nowFirst, env.nowCheck, env.nowSecond]
  | .pnc _ env _ _ => [env.nowFirst, env.nowCheck, env.nowSecond]
  | _ => []

/-- No statement that writes what the CSMS said fails, and StopTransaction.conf carries no idTagInfo. -/
def Stores : Op → Prop
  | .authorize _ env _ _ => env.fails .store = false
  | .startConf _ _ ok => ok = true
  | .stopConf _ _ _ => False
  | _ => True

/-- A row agrees with what was said last: it is that, or that marked as expired after its expiry date
was seen to have passed. -/
def Agrees (times : List Int) : Option Info → Option Info → Prop
  | none, none => True
  | some j, some i =>
    i = j ∨ (i = { j with status := .expired } ∧ ∃ e, j.expiry = some e ∧ ∃ t ∈ times, e ≤ t)
  | _, _ => False

/-! ### The local list -/

/-- What a request says about a tag: `none` nothing, `some none` removal. The last entry counts. -/
def saidBy (es : List (Str × Option Info)) (k : Str) : Option (Option Info) :=
  (es.reverse.find? (fun e => e.1 == k)).map (·.2)

/-- Every statement succeeds. -/
def Works (ok : Write → Bool) : Prop := ∀ w, ok w = true

end Verif.Auth16
