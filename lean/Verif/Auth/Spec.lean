import Verif.Auth.Model
/-
What the theorems about authorization say, apart from the model's own functions. Only data types of the
model, `key` (the text under which a token is stored) and set membership are used.
-/
namespace Verif.Auth

/-- The configuration permits local authorization in the present connection state. -/
def LocalPermitted (cfg : Config) (env : Env) : Prop :=
  (env.online = true ∧ cfg.localPreAuthorize = true) ∨
  (env.online = false ∧ cfg.localAuthorizeOffline = true)

/-- The local list holds `i` for the token. -/
def Listed (db : Db) (t : Token) (i : Info) : Prop := (key t, i) ∈ db.list

/-- The cache row is within the configured lifetime and before its own expiry date. -/
def Fresh (lifetime : Option Int) (now : Int) (r : Row) : Prop :=
  (∀ s, lifetime = some s → now ≤ r.lastUsed + 1000 * s) ∧
  (∀ e, r.info.cacheExpiry = some e → now ≤ e)

/-- Types compare without regard to case. -/
def HasType (t : Token) (ty : Str) : Prop := lower t.type = lower ty

/-- The token needs no authorization. -/
def Exempt (cfg : Config) (t : Token) : Prop :=
  cfg.authEnabled = false ∨ HasType t central ∨ HasType t noAuthorization

/-- A contract (eMAID) may be looked up locally only while offline, with offline validation and offline
authorization configured and after its certificate was found valid. Other tokens always may. -/
def ContractOk (cfg : Config) (env : Env) (t : Token) (cert : Option Str) : Prop :=
  HasType t eMAID →
    env.online = false ∧ cert.isSome = true ∧ cfg.contractOffline = true ∧ env.verify = .valid ∧
    cfg.localAuthorizeOffline = true

/-- The reasons for which a token may be accepted. `sent` are the Authorize requests of this call. -/
inductive Justified (cfg : Config) (env : Env) (t : Token) (cert : Option Str) (db : Db)
    (sent : List AuthReq) : Prop
  | exempt (h : Exempt cfg t)
  /-- The CSMS accepted this token in this call. -/
  | csms (r : AuthReq) (a : Resp) (sent : r ∈ sent) (token : r.token = t) (answer : env.csms r = some a)
      (ok : a.info.status = .accepted)
  /-- The local list accepts it. -/
  | list (i : Info) (on : cfg.listEnabled = true) (permitted : LocalPermitted cfg env)
      (entry : Listed db t i) (ok : i.status = .accepted) (contract : ContractOk cfg env t cert)
  /-- A fresh row of the cache accepts it. -/
  | cache (r : Row) (on : cfg.cacheEnabled = true) (permitted : LocalPermitted cfg env)
      (row : r ∈ db.cache) (key : r.key = key t) (fresh : Fresh cfg.lifetime env.now r)
      (ok : r.info.status = .accepted) (contract : ContractOk cfg env t cert)
  /-- The station is offline and may accept unknown tokens; the list, if it may be used, does not know
  the token. -/
  | offline (off : env.online = false) (on : cfg.offlineUnknown = true)
      (unknown : cfg.listEnabled = true → LocalPermitted cfg env → env.listReadFails = false →
        ∀ i, ¬ Listed db t i)
      (contract : ContractOk cfg env t cert)

/-- At most one row per key; the tables' primary keys. -/
def UniqueKeys (db : Db) : Prop :=
  (db.list.map (·.1)).Nodup ∧ (db.cache.map (·.key)).Nodup

/-- The token types of the OCPP specification. -/
def standardTypes : List Str :=
  [valueType, central, directPayment, eMAID, evccId, iso14443, iso15693, keyCode, localType, macAddress,
   nema, noAuthorization, vin]

/-- The token has a type of the specification, in the specified spelling. -/
def Standard (t : Token) : Prop := t.type ∈ standardTypes

/-- Two tokens that OCPP does not distinguish: identifierString and type are case-insensitive. -/
def SameToken (a b : Token) : Prop := lower a.id = lower b.id ∧ lower a.type = lower b.type

/-- What the CSMS states about tokens in one operation: its answers to the requests of this call, or
the idTokenInfo of a TransactionEvent response. -/
def said (db : Db) : Op → List (Token × Info)
  | .validate cfg env t cert ocsp =>
    (validate cfg env t cert ocsp db).sent.filterMap fun r => (env.csms r).map fun a => (r.token, a.info)
  | .txEvent _ _ x =>
    match x.token, x.info with
    | some t, some i => [(t, i)]
    | _, _ => []
  | _ => []

/-- What the CSMS stated in a whole history. -/
def saidAll (db : Db) : List Op → List (Token × Info)
  | [] => []
  | o :: os => said db o ++ saidAll (step db o) os

/-- The list entries the CSMS sent in one operation. -/
def listed : Op → List (Token × Option Info)
  | .sendList _ _ r => r.entries
  | .crashList _ _ _ r => r.entries
  | _ => []

/-- The versions of the SendLocalList requests of a history that were answered Accepted. -/
def acceptedVersions (db : Db) : List Op → List Int
  | [] => []
  | o :: os =>
    (match o with
      | .sendList enabled ok r =>
        if (sendList enabled ok db.version r).1 = .accepted then [r.version] else []
      | _ => []) ++ acceptedVersions (step db o) os

/-- All database statements succeed. -/
def Works (ok : Write → Bool) : Prop := ∀ w, ok w = true

end Verif.Auth
