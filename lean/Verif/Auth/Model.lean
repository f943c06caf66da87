/-
Model of token authorization of OCPP 2.x: `Authorization::validate_token` and `authorize_req`, the
authorization cache with its cleanup, the local authorization list, and the reaction to the
idTokenInfo of a TransactionEvent response.

Files modelled:
  lib/ocpp/v2/functional_blocks/authorization.cpp
  lib/ocpp/v2/database_handler.cpp l.112-232 (AUTH_CACHE), l.272-380 (AUTH_LIST, AUTH_LIST_VERSION)
  lib/ocpp/v2/utils.cpp l.125-127 (generate_token_hash)
  lib/ocpp/v2/functional_blocks/transaction.cpp l.266-336 (handle_transaction_event_response)

Simplifications, stated once:
  * sha256 is taken to be collision free: the key of a table row is the hashed text itself.
  * Times are integers in milliseconds (the database stores milliseconds).
  * Every part of an IdTokenInfo besides status and cacheExpiryDateTime is one opaque number.
  * A database statement either takes effect completely or fails without effect; which ones fail is
    part of the environment.
-/
namespace Verif.Auth

/-- std::string; a list of characters. -/
abbrev Str := List Char

/-- ASCII lower case, as used by boost::iequals / `iequals` (lib/ocpp/common/utils.cpp) with the
classic locale. -/
def lower (s : Str) : Str := s.map Char.toLower

/-- `operator==` of CiString (include/ocpp/common/cistring.hpp l.55-63): case-insensitive. -/
def ciEq (a b : Str) : Bool := decide (lower a = lower b)

/-- `IdToken` (include/ocpp/v2/ocpp_types.hpp l.66-71), without additionalInfo and customData, which
take no part in any decision modelled here. -/
structure Token where
  type : Str
  id : Str
deriving DecidableEq, Repr

/-- `utils::generate_token_hash` (lib/ocpp/v2/utils.cpp l.125-127): sha256 of the concatenation of type
and id, without separator and without folding the case. -/
def key (t : Token) : Str := t.type ++ t.id

/-- The types of `IdTokenEnumStringType` (include/ocpp/v2/types.hpp l.231-245). -/
def central : Str := ['C','e','n','t','r','a','l']
def noAuthorization : Str := ['N','o','A','u','t','h','o','r','i','z','a','t','i','o','n']
def eMAID : Str := ['e','M','A','I','D']
def iso14443 : Str := ['I','S','O','1','4','4','4','3']
def iso15693 : Str := ['I','S','O','1','5','6','9','3']
def keyCode : Str := ['K','e','y','C','o','d','e']
def localType : Str := ['L','o','c','a','l']
def macAddress : Str := ['M','a','c','A','d','d','r','e','s','s']
def directPayment : Str := ['D','i','r','e','c','t','P','a','y','m','e','n','t']
def evccId : Str := ['E','V','C','C','I','D']
def nema : Str := ['N','E','M','A']
def vin : Str := ['V','I','N']
def valueType : Str := ['V','a','l','u','e']

/-- `AuthorizationStatusEnum` (include/ocpp/v2/ocpp_enums.hpp l.58-69). -/
inductive Status where
  | accepted | blocked | concurrentTx | expired | invalid | noCredit | notAllowedTypeEVSE
  | notAtThisLocation | notAtThisTime | unknown
deriving DecidableEq, Repr

/-- `IdTokenInfo`. -/
structure Info where
  status : Status
  cacheExpiry : Option Int := none
  rest : Nat := 0
deriving DecidableEq, Repr

/-- The IdTokenInfo the station builds itself when it has nothing but a status. -/
def Info.only (s : Status) : Info := { status := s }

/-- `AuthorizeCertificateStatusEnum`: only two values are produced locally, the others come from the
CSMS. -/
inductive CertStatus where
  | accepted | certificateExpired | other (n : Nat)
deriving DecidableEq, Repr

/-- `AuthorizeResponse`. -/
structure Resp where
  info : Info
  cert : Option CertStatus := none
deriving DecidableEq, Repr

/-- `AuthorizeRequest`; certificate chains and OCSP request data are opaque. -/
structure AuthReq where
  token : Token
  cert : Option Str := none
  ocsp : Option (List Nat) := none
deriving DecidableEq, Repr

/-- `CertificateValidationResult` (include/ocpp/common/evse_security.hpp). -/
inductive CertResult where
  | valid | expired | invalidSignature | issuerNotFound | invalidLeafSignature | invalidChain | unknown
deriving DecidableEq, Repr

/-- The configuration read by validate_token (l.158-186, l.289-292, l.336, l.355, l.375), absent
variables already replaced by their default `false`. -/
structure Config where
  authEnabled : Bool
  localAuthorizeOffline : Bool
  localPreAuthorize : Bool
  disableRemote : Bool
  centralContract : Bool
  contractOffline : Bool
  listEnabled : Bool
  cacheEnabled : Bool
  lifetime : Option Int
  disablePostAuthorize : Bool
  offlineUnknown : Bool
deriving DecidableEq, Repr

/-- Everything validate_token gets from outside: the connection (read once by validate_token and once
more by authorize_req), the clock, the certificate check, the answer of the CSMS to a request (`none`:
timeout, CALLERROR or an answer that cannot be parsed) and failing database statements. -/
structure Env where
  online : Bool
  onlineAtRequest : Bool
  now : Int
  verify : CertResult
  moOcsp : List Nat
  csms : AuthReq → Option Resp
  listReadFails : Bool := false
  cacheReadFails : Bool := false
  cacheWriteFails : Bool := false
  cacheInsertFails : Bool := false

/-- A row of AUTH_CACHE (database_handler.cpp l.112-131; the column EXPIRY_DATE is a copy of
cacheExpiryDateTime). -/
structure Row where
  key : Str
  info : Info
  lastUsed : Int
deriving DecidableEq, Repr

/-- The three tables. -/
structure Db where
  cache : List Row := []
  list : List (Str × Info) := []
  version : Int := 0
deriving DecidableEq, Repr

/-- SELECT by primary key from AUTH_LIST (l.344-362). -/
def listGet (l : List (Str × Info)) (k : Str) : Option Info := (l.find? (fun e => e.1 == k)).map (·.2)

/-- SELECT by primary key from AUTH_CACHE (l.145-164). -/
def cacheGet (c : List Row) (k : Str) : Option Row := c.find? (fun r => r.key == k)

/-- DELETE by primary key from AUTH_CACHE (l.166-175). -/
def cacheDel (c : List Row) (k : Str) : List Row := c.filter (fun r => !(r.key == k))

/-- INSERT OR REPLACE into AUTH_CACHE (l.112-131). -/
def cachePut (c : List Row) (k : Str) (i : Info) (now : Int) : List Row :=
  cacheDel c k ++ [{ key := k, info := i, lastUsed := now }]

/-- UPDATE of LAST_USED (l.133-143). -/
def cacheTouch (c : List Row) (k : Str) (now : Int) : List Row :=
  c.map (fun r => if r.key == k then { r with lastUsed := now } else r)

/-- `authorize_req` (authorization.cpp l.59-105): nothing is sent without a connection; without a usable
answer the status is Unknown. The second component is the list of requests handed to the message
queue. -/
def authorizeReq (env : Env) (r : AuthReq) : Resp × List AuthReq :=
  if env.onlineAtRequest then ((env.csms r).getD { info := .only .unknown }, [r])
  else ({ info := .only .unknown }, [])

/-- The answer of the local certificate check while offline (l.235-271); `none`: go on with the local
list and the cache. -/
def emaidOffline (cfg : Config) (env : Env) : Option Resp :=
  if cfg.contractOffline then
    match env.verify with
    | .valid =>
      if cfg.localAuthorizeOffline then none
      else some { info := .only .unknown, cert := some .accepted }
    | .expired => some { info := .only .expired, cert := some .certificateExpired }
    | .invalidSignature => some { info := .only .unknown }
    | .issuerNotFound => some { info := .only .unknown }
    | .invalidLeafSignature => some { info := .only .unknown }
    | .invalidChain => some { info := .only .unknown }
    | .unknown => some { info := .only .unknown }
  else some { info := .only .notAtThisTime }

/-- Passing the contract certificate on to the CSMS if that is allowed (l.207-214, l.224-232). -/
def centralValidation (cfg : Config) (env : Env) (t : Token) (cert : Str) : Resp × List AuthReq :=
  if cfg.centralContract then authorizeReq env { token := t, cert := some cert }
  else ({ info := .only .invalid }, [])

/-- The contract certificate path while online (l.203-234). -/
def emaidOnline (cfg : Config) (env : Env) (t : Token) (cert : Str) : Resp × List AuthReq :=
  if env.verify = .issuerNotFound then centralValidation cfg env t cert
  else if env.moOcsp.isEmpty then centralValidation cfg env t cert
  else authorizeReq env { token := t, ocsp := some env.moOcsp }

/-- The eMAID branch of validate_token (l.173-287); `none`: go on with the local list and the cache. -/
def emaid (cfg : Config) (env : Env) (t : Token) (cert : Option Str) (ocsp : Option (List Nat)) :
    Option (Resp × List AuthReq) :=
  if env.online && ocsp.isSome then some (authorizeReq env { token := t, ocsp := ocsp })
  else match cert with
    | some c =>
      if env.online then some (emaidOnline cfg env t c)
      else (emaidOffline cfg env).map (fun r => (r, []))
    | none => some ({ info := .only .invalid }, [])

/-- `can_locally_check` (l.291). -/
def localAllowed (cfg : Config) (env : Env) : Bool :=
  (env.online && cfg.localPreAuthorize) || (!env.online && cfg.localAuthorizeOffline)

/-- The local list branch (l.292-324); `none`: no entry was found. -/
def listStage (cfg : Config) (env : Env) (t : Token) (cert : Option Str) (ocsp : Option (List Nat))
    (db : Db) : Option (Resp × List AuthReq) :=
  if cfg.listEnabled && localAllowed cfg env && !env.listReadFails then
    (listGet db.list (key t)).map fun i =>
      if i.status = .accepted then ({ info := i }, [])
      else if cfg.disableRemote then ({ info := .only .unknown }, [])
      else if env.online then authorizeReq env { token := t, cert := cert, ocsp := ocsp }
      else ({ info := .only .unknown }, [])
  else none

/-- Is a cache row out of date (l.336-342)? -/
def rowExpired (lifetime : Option Int) (now : Int) (r : Row) : Bool :=
  (match lifetime with
    | some s => decide (r.lastUsed + 1000 * s < now)
    | none => false) ||
  (match r.info.cacheExpiry with
    | some e => decide (e < now)
    | none => false)

/-- What the cache branch does with a row it found (l.332-365). A failing database statement leaves the
branch by exception, without an answer. -/
def cacheHit (cfg : Config) (env : Env) (k : Str) (c : List Row) (r : Row) : Option Info × List Row :=
  if rowExpired cfg.lifetime env.now r then
    (none, if env.cacheWriteFails then c else cacheDel c k)
  else if r.info.status = .accepted then
    (if env.cacheWriteFails then (none, c) else (some r.info, cacheTouch c k env.now))
  else if cfg.disablePostAuthorize then (some r.info, c)
  else (none, c)

/-- The cache branch (l.326-373): an answer, if there is one, and the cache afterwards. -/
def cacheStage (cfg : Config) (env : Env) (t : Token) (c : List Row) : Option Info × List Row :=
  if cfg.cacheEnabled && localAllowed cfg env && !env.cacheReadFails then
    match cacheGet c (key t) with
    | some r => cacheHit cfg env (key t) c r
    | none => (none, c)
  else (none, c)

/-- Answer, requests sent and the cache afterwards. -/
structure Outcome where
  resp : Resp
  sent : List AuthReq
  cache : List Row

/-- Storing the answer of authorize_req (l.388-395). -/
def storeAnswer (cfg : Config) (env : Env) (t : Token) (i : Info) (c : List Row) : List Row :=
  if cfg.cacheEnabled && !env.cacheInsertFails then cachePut c (key t) i env.now else c

/-- The end of validate_token, after list and cache gave no answer (l.375-404). -/
def lastStage (cfg : Config) (env : Env) (t : Token) (cert : Option Str) (ocsp : Option (List Nat))
    (c : List Row) : Outcome :=
  if !env.online && cfg.offlineUnknown then ⟨{ info := .only .accepted }, [], c⟩
  else if cfg.disableRemote then ⟨{ info := .only .unknown }, [], c⟩
  else
    let a := authorizeReq env { token := t, cert := cert, ocsp := ocsp }
    ⟨a.1, a.2, storeAnswer cfg env t a.1.info c⟩

/-- List, cache and CSMS (l.289-404). -/
def localStages (cfg : Config) (env : Env) (t : Token) (cert : Option Str) (ocsp : Option (List Nat))
    (db : Db) : Outcome :=
  match listStage cfg env t cert ocsp db with
  | some (r, s) => ⟨r, s, db.cache⟩
  | none =>
    let h := cacheStage cfg env t db.cache
    match h.1 with
    | some i => ⟨{ info := i }, [], h.2⟩
    | none => lastStage cfg env t cert ocsp h.2

/-- Does the token need no authorization (l.158-164)? The comparison of the type ignores the case. -/
def exempt (cfg : Config) (t : Token) : Bool :=
  ciEq t.type central || ciEq t.type noAuthorization || !cfg.authEnabled

/-- `validate_token` (l.150-404). -/
def validate (cfg : Config) (env : Env) (t : Token) (cert : Option Str) (ocsp : Option (List Nat))
    (db : Db) : Outcome :=
  if exempt cfg t then ⟨{ info := .only .accepted }, [], db.cache⟩
  else if ciEq t.type eMAID then
    match emaid cfg env t cert ocsp with
    | some (r, s) => ⟨r, s, db.cache⟩
    | none => localStages cfg env t cert ocsp db
  else localStages cfg env t cert ocsp db

/-! ### Cleanup of the cache -/

/-- `authorization_cache_delete_expired_entries` (database_handler.cpp l.189-208). Comparison with NULL
is not true in SQL, so that a missing date or lifetime does not expire a row. -/
def deleteExpired (lifetime : Option Int) (now : Int) (c : List Row) : List Row :=
  c.filter fun r =>
    !((match r.info.cacheExpiry with
        | some e => decide (e < now)
        | none => false) ||
      (match lifetime with
        | some s => decide (r.lastUsed < now - 1000 * s)
        | none => false))

/-- The row `ORDER BY LAST_USED ASC LIMIT 1` selects (l.177-187). Among rows of equal age SQLite is free
to choose; the model takes the first. -/
def oldest : List Row → Option Row
  | [] => none
  | r :: rs =>
    match oldest rs with
    | none => some r
    | some m => if m.lastUsed < r.lastUsed then some m else some r

/-- `authorization_cache_delete_nr_of_oldest_entries(1)` (l.177-187). -/
def deleteOldest (c : List Row) : List Row :=
  match oldest c with
  | none => c
  | some m => cacheDel c m.key

/-- `authorization_cache_get_binary_size` (l.216-226) as the sum of the sizes of the rows; `size` is the
payload of a row. -/
def totalSize (size : Row → Nat) (c : List Row) : Nat := (c.map size).sum

/-- The eviction loop of `cache_cleanup_handler` (authorization.cpp l.476-483). `fuel` bounds the number
of iterations; it is instantiated with the number of rows (see `cleanup`), and the loop is shown to
reach its exit condition within it. -/
def evict (size : Row → Nat) (max : Nat) : Nat → List Row → List Row
  | 0, c => c
  | fuel + 1, c => if totalSize size c > max then evict size max fuel (deleteOldest c) else c

/-- One round of `cache_cleanup_handler` (l.463-484); `max` is the maxLimit of AuthCacheStorage. -/
def cleanup (size : Row → Nat) (lifetime : Option Int) (max : Option Nat) (now : Int) (c : List Row) :
    List Row :=
  let c := deleteExpired lifetime now c
  match max with
  | some m => evict size m c.length c
  | none => c

/-! ### Local authorization list -/

/-- `UpdateEnum`. -/
inductive Update where
  | full | differential
deriving DecidableEq, Repr

/-- `SendLocalListRequest`; an absent list is treated like an empty one everywhere in the code (l.562,
l.590). -/
structure ListReq where
  update : Update
  version : Int
  entries : List (Token × Option Info) := []
deriving DecidableEq, Repr

/-- `SendLocalListStatusEnum`. -/
inductive ListStatus where
  | accepted | failed | versionMismatch
deriving DecidableEq, Repr

/-- The single write statements of an update (database_handler.cpp l.272-369). -/
inductive Write where
  | clear
  | put (k : Str) (i : Info)
  | del (k : Str)
  | version (v : Int)
deriving DecidableEq, Repr

/-- Effect of one statement on the tables. -/
def Write.apply (db : Db) : Write → Db
  | .clear => { db with list := [] }
  | .put k i => { db with list := db.list.filter (fun e => !(e.1 == k)) ++ [(k, i)] }
  | .del k => { db with list := db.list.filter (fun e => !(e.1 == k)) }
  | .version v => { db with version := v }

/-- Effect of a sequence of statements. -/
def applyAll (db : Db) (ws : List Write) : Db := ws.foldl Write.apply db

/-- The statement for one entry of the request (l.314-321). -/
def entryWrite (e : Token × Option Info) : Write :=
  match e.2 with
  | some i => .put (key e.1) i
  | none => .del (key e.1)

/-- `has_duplicate_in_list` (authorization.cpp l.610-619). -/
def hasDuplicate : List (Token × Option Info) → Bool
  | [] => false
  | e :: es =>
    es.any (fun f => ciEq e.1.id f.1.id && ciEq e.1.type f.1.type) || hasDuplicate es

/-- `has_no_token_info` for some entry (l.573-574, l.621-623). -/
def lacksInfo (es : List (Token × Option Info)) : Bool := es.any (fun e => e.2.isNone)

/-- `insert_or_update_local_authorization_list` (database_handler.cpp l.311-331): a failing statement
does not stop the others. Result: did all succeed, and the statements that took effect. -/
def insertAll (ok : Write → Bool) (es : List (Token × Option Info)) : Bool × List Write :=
  ((es.map entryWrite).all ok, (es.map entryWrite).filter ok)

/-- The Full branch of `apply_local_authorization_list` (l.561-585). -/
def applyFull (ok : Write → Bool) (es : List (Token × Option Info)) : ListStatus × List Write :=
  if es.isEmpty then
    if ok .clear then (.accepted, [.clear]) else (.failed, [])
  else if hasDuplicate es || lacksInfo es then (.failed, [])
  else if ok .clear then
    (if (insertAll ok es).1 then .accepted else .failed, .clear :: (insertAll ok es).2)
  else (.failed, [])

/-- The Differential branch (l.586-605). -/
def applyDifferential (ok : Write → Bool) (stored version : Int) (es : List (Token × Option Info)) :
    ListStatus × List Write :=
  if version ≤ stored then (.versionMismatch, [])
  else if es.isEmpty then (.accepted, [])
  else if hasDuplicate es then (.failed, [])
  else (if (insertAll ok es).1 then .accepted else .failed, (insertAll ok es).2)

/-- `apply_local_authorization_list` (l.555-607). `ok` tells which write statements succeed. Result: the
status and the statements that took effect, in order. -/
def applyList (ok : Write → Bool) (stored : Int) (r : ListReq) : ListStatus × List Write :=
  if r.version ≤ 0 then (.failed, [])
  else match r.update with
    | .full => applyFull ok r.entries
    | .differential => applyDifferential ok stored r.version r.entries

/-- `handle_send_local_authorization_list_req` (l.495-532), without the read-only variable that counts
the entries. -/
def sendList (enabled : Bool) (ok : Write → Bool) (stored : Int) (r : ListReq) :
    ListStatus × List Write :=
  if enabled then
    let a := applyList ok stored r
    if a.1 = .accepted then
      if ok (.version r.version) then (.accepted, a.2 ++ [.version r.version]) else (.failed, a.2)
    else a
  else (.failed, [])

/-- The database after a SendLocalList request was handled completely. -/
def afterList (enabled : Bool) (ok : Write → Bool) (db : Db) (r : ListReq) : Db :=
  applyAll db (sendList enabled ok db.version r).2

/-- The database after a power cut that let only the first `n` statements take effect. Each statement
runs in its own transaction. -/
def crashedList (n : Nat) (enabled : Bool) (ok : Write → Bool) (db : Db) (r : ListReq) : Db :=
  applyAll db ((sendList enabled ok db.version r).2.take n)

/-- `handle_get_local_authorization_list_version_req` (l.534-553). -/
def getListVersion (enabled : Bool) (db : Db) : Int := if enabled then db.version else 0

/-! ### Reaction to a TransactionEvent response -/

/-- What the station does with a transaction whose token is not accepted. -/
inductive Deauth where
  | stop (evse : Nat)
  | limitEnergy (evse : Nat)
  | pause (evse : Nat)
deriving DecidableEq, Repr

/-- A TransactionEvent request with its response, as far as handle_transaction_event_response looks at
it. -/
structure TxExchange where
  ended : Bool
  token : Option Token
  transaction : Str
  info : Option Info
deriving DecidableEq, Repr

/-- Configuration used by handle_transaction_event_response. -/
structure TxConfig where
  cacheEnabled : Bool
  stopOnInvalid : Bool
  maxEnergy : Option Int
deriving DecidableEq, Repr

/-- The cache after handle_transaction_event_response (transaction.cpp l.277-307). The comparison of the
type is CiString's `!=`, which is case-sensitive. -/
def txCache (cfg : TxConfig) (now : Int) (x : TxExchange) (c : List Row) : List Row :=
  if x.ended then c
  else match x.info, x.token with
    | some i, some t => if t.type ≠ central ∧ cfg.cacheEnabled then cachePut c (key t) i now else c
    | _, _ => c

/-- The actions of handle_transaction_event_response (l.309-336). `evses` is the list of EVSE ids with
the id of their transaction, if any; the loop stops at the first match. -/
def txActions (cfg : TxConfig) (evses : List (Nat × Option Str)) (x : TxExchange) : List Deauth :=
  if x.ended then []
  else match x.info, x.token with
    | some i, some _ =>
      if i.status = .accepted then []
      else match evses.find? (fun e => e.2 == some x.transaction) with
        | some e =>
          if cfg.stopOnInvalid then [.stop e.1]
          else if cfg.maxEnergy.isSome then [.limitEnergy e.1]
          else [.pause e.1]
        | none => []
    | _, _ => []

/-! ### Histories -/

/-- The operations that read or change the tables. `forget` is the deletion of a cache row by a
CustomerInformation request (diagnostics.cpp l.405-425), `clearCache` is ClearCache (l.420-439). -/
inductive Op where
  | validate (cfg : Config) (env : Env) (t : Token) (cert : Option Str) (ocsp : Option (List Nat))
  | txEvent (cfg : TxConfig) (now : Int) (x : TxExchange)
  | clearCache (enabled : Bool)
  | cleanup (size : Row → Nat) (lifetime : Option Int) (max : Option Nat) (now : Int)
  | forget (t : Token)
  | sendList (enabled : Bool) (ok : Write → Bool) (r : ListReq)
  | crashList (n : Nat) (enabled : Bool) (ok : Write → Bool) (r : ListReq)

/-- One operation. -/
def step (db : Db) : Op → Db
  | .validate cfg env t cert ocsp => { db with cache := (validate cfg env t cert ocsp db).cache }
  | .txEvent cfg now x => { db with cache := txCache cfg now x db.cache }
  | .clearCache enabled => if enabled then { db with cache := [] } else db
  | .cleanup size lifetime max now => { db with cache := cleanup size lifetime max now db.cache }
  | .forget t => { db with cache := cacheDel db.cache (key t) }
  | .sendList enabled ok r => afterList enabled ok db r
  | .crashList n enabled ok r => crashedList n enabled ok db r

/-- A history of operations. -/
def run (db : Db) (ops : List Op) : Db := ops.foldl step db

end Verif.Auth
