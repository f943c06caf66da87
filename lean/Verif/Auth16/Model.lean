set_option linter.constructorNameAsVariable false

/-!
# Authorization of an OCPP 1.6 charge point

Model of `authorize_id_token`, `validate_against_cache_entries`, `data_transfer_pnc_authorize`,
ClearCache, SendLocalList, GetLocalListVersion and the idTagInfo of StartTransaction.conf and
StopTransaction.conf in `lib/ocpp/v16/charge_point_impl.cpp`, and of the tables AUTH_CACHE, AUTH_LIST
and AUTH_LIST_VERSION in `lib/ocpp/v16/database_handler.cpp`.

Simplifications, stated once:
* Times are integers in milliseconds; the tables store them as text (see C108 for the conversion).
* A database statement takes effect completely or fails without effect (QueryExecutionException);
  which ones fail is part of the environment.
* The websocket answers all questions about the connection within one call in the same way.
* Tariff messages are left out; only whether fetching one dereferences a null pointer is kept.
-/

namespace Verif.Auth16

/-- std::string; a list of characters. -/
abbrev Str := List Char

/-- ASCII lower case; idTags are case-insensitive (CiString, include/ocpp/common/cistring.hpp). -/
def lower (s : Str) : Str := s.map Char.toLower

/-- `AuthorizationStatus` (include/ocpp/v16/ocpp_enums.hpp). -/
inductive Status
  | accepted | blocked | expired | invalid | concurrentTx
  deriving DecidableEq, Repr

/-- `IdTagInfo` (include/ocpp/v16/ocpp_types.hpp). -/
structure Info where
  status : Status
  expiry : Option Int := none
  parent : Option Str := none
  deriving DecidableEq, Repr

/-- A table with the primary key ID_TAG (config/v16/core_migrations/1_up-initial.sql). The text is
compared byte by byte. -/
abbrev Table := List (Str × Info)

/-- The row of a key. -/
def get (t : Table) (k : Str) : Option Info := (t.find? (fun r => r.1 == k)).map (·.2)

/-- `DELETE FROM … WHERE ID_TAG = …`. -/
def del (t : Table) (k : Str) : Table := t.filter (fun r => r.1 != k)

/-- `INSERT OR REPLACE INTO …`. -/
def put (t : Table) (k : Str) (i : Info) : Table := del t k ++ [(k, i)]

/-- The tables. `version` is the single row of AUTH_LIST_VERSION, if there is one. -/
structure Db where
  list : Table := []
  cache : Table := []
  version : Option Int := some 0
  deriving DecidableEq, Repr

/-- The configuration keys read. `cache` and `offlineUnknown` are optional keys. -/
structure Config where
  preAuthorize : Bool
  authorizeOffline : Bool
  listEnabled : Bool
  listProfile : Bool := true
  cache : Option Bool
  offlineUnknown : Option Bool
  customDisplay : Bool := false
  pnc : Bool := false
  central : Option Bool := none
  contractOffline : Bool := false
  deriving DecidableEq, Repr

/-- The statements of `authorize_id_token` that can fail. -/
inductive Call
  | listRead | listWrite | firstRead | firstWrite | checkWrite | secondRead | secondWrite | store
  deriving DecidableEq, Repr

/-- What happens to an Authorize request: an answer, an answer that cannot be parsed, no answer in
time, a CALLERROR, or the station is offline. -/
inductive Answer
  | conf (i : Info) | malformed | timeout | callError | offline
  deriving DecidableEq, Repr

/-- Everything `authorize_id_token` gets from outside. `ws` is the websocket: `none` before it is
created, otherwise whether it is connected. The four clock readings are those of the statements in the
order of execution. -/
structure Env where
  ws : Option Bool
  nowList : Int
  nowFirst : Int
  nowCheck : Int
  nowSecond : Int
  fails : Call → Bool := fun _ => false
  answer : Str → Answer

/-- Result of reading a row. -/
inductive Read
  | error | absent | found (i : Info)
  deriving DecidableEq, Repr

/-- `get_authorization_cache_entry` (database_handler.cpp l.252-297) and
`get_local_authorization_list_entry` (l.451-497): the row, set to Expired (and stored so) when its expiry
date has passed. -/
def readRow (t : Table) (k : Str) (now : Int) (readFails writeFails : Bool) : Read × Table :=
  if readFails then (.error, t)
  else
    match get t k with
    | none => (.absent, t)
    | some i =>
      match i.expiry with
      | none => (.found i, t)
      | some e =>
        if i.status ≠ .expired ∧ e ≤ now then
          if writeFails then (.error, t)
          else (.found { i with status := .expired }, put t k { i with status := .expired })
        else (.found i, t)

/-- What a call gives: an idTagInfo, or undefined behaviour (a missing return value, a null pointer
dereferenced). -/
inductive Outcome
  | info (i : Info) | undefined
  deriving DecidableEq, Repr

/-- `validate_against_cache_entries` (charge_point_impl.cpp l.2246-2275): `none` if the function ends
without return value, which it does after a QueryExecutionException. -/
def validateCache (env : Env) (db : Db) (k : Str) : Option Bool × Db :=
  match readRow db.cache k env.nowFirst (env.fails .firstRead) (env.fails .firstWrite) with
  | (.error, c) => (none, { db with cache := c })
  | (.absent, c) => (some false, { db with cache := c })
  | (.found i, c) =>
    if i.status ≠ .accepted then (some false, { db with cache := c })
    else
      match i.expiry with
      | none => (some true, { db with cache := c })
      | some e =>
        if e < env.nowCheck then
          (some false, { db with cache := if env.fails .checkWrite then c
                                          else put c k { i with status := .expired } })
        else (some true, { db with cache := c })

/-- The condition for the use of list and cache (charge_point_impl.cpp l.3496-3499). -/
def localAllowed (cfg : Config) (env : Env) : Bool :=
  (cfg.preAuthorize && env.ws == some true) || (cfg.authorizeOffline && env.ws != some true)

/-- A row found locally is returned, after `update_tariff_message_if_eligible` (charge_point_impl.cpp
l.3501-3508), which dereferences the websocket without looking whether there is one. -/
def deliver (cfg : Config) (env : Env) (i : Info) : Outcome :=
  if i.status = .accepted ∧ cfg.customDisplay = true ∧ env.ws = none then .undefined else .info i

/-- The use of the cache (charge_point_impl.cpp l.3527-3541). `getAuthorizationCacheEnabled()` is a
`std::optional<bool>` that is tested itself, not its value. `none`: go on. -/
def cacheStage (cfg : Config) (env : Env) (k : Str) (db : Db) : Option Outcome × Db :=
  if cfg.cache.isSome then
    match validateCache env db k with
    | (none, db) => (some .undefined, db)
    | (some false, db) => (none, db)
    | (some true, db) =>
      match readRow db.cache k env.nowSecond (env.fails .secondRead) (env.fails .secondWrite) with
      | (.found i, c) => (some (deliver cfg env i), { db with cache := c })
      | (_, c) => (none, { db with cache := c })
  else (none, db)

/-- The use of the local list (charge_point_impl.cpp l.3510-3525), followed by the cache. -/
def listStage (cfg : Config) (env : Env) (k : Str) (db : Db) : Option Outcome × Db :=
  if cfg.listEnabled then
    match readRow db.list k env.nowList (env.fails .listRead) (env.fails .listWrite) with
    | (.found i, l) => (some (deliver cfg env i), { db with list := l })
    | (_, l) => cacheStage cfg env k { db with list := l }
  else cacheStage cfg env k db

/-- List and cache, if they may be used (charge_point_impl.cpp l.3496-3542). -/
def localStage (cfg : Config) (env : Env) (k : Str) (db : Db) : Option Outcome × Db :=
  if localAllowed cfg env then listStage cfg env k db else (none, db)

/-- What the call leaves: its result, the tables, the Authorize requests sent. -/
structure Result where
  outcome : Outcome
  db : Db
  sent : List Str

def onlyStatus (s : Status) : Info := { status := s }

/-- The Authorize request and its answer (charge_point_impl.cpp l.3549-3610). An answer is stored in
the cache, whether the cache is enabled or not. -/
def remote (cfg : Config) (env : Env) (k : Str) (db : Db) : Result :=
  match env.answer k with
  | .conf i =>
    if env.fails .store then { outcome := .info (onlyStatus .invalid), db := db, sent := [k] }
    else { outcome := .info i, db := { db with cache := put db.cache k i }, sent := [k] }
  | .offline =>
    if cfg.offlineUnknown.getD false then
      { outcome := .info (onlyStatus .accepted), db := db, sent := [k] }
    else { outcome := .info (onlyStatus .invalid), db := db, sent := [k] }
  | _ => { outcome := .info (onlyStatus .invalid), db := db, sent := [k] }

/-- `authorize_id_token` (charge_point_impl.cpp l.3486-3610). -/
def authorize (cfg : Config) (env : Env) (k : Str) (onlyLocal : Bool) (db : Db) : Result :=
  match localStage cfg env k db with
  | (some o, db) => { outcome := o, db := db, sent := [] }
  | (none, db) =>
    if onlyLocal then { outcome := .info (onlyStatus .invalid), db := db, sent := [] }
    else remote cfg env k db

/-! ### Contract certificates -/

/-- `CertificateValidationResult` (include/ocpp/common/evse_security.hpp). -/
inductive CertResult
  | valid | expired | invalidSignature | issuerNotFound | invalidLeafSignature | invalidChain | unknown
  deriving DecidableEq, Repr

/-- `AuthorizationStatusEnum` of OCPP 2.x, as far as produced here, or any answer of the CSMS. -/
inductive Status2
  | accepted | invalid | unknown | expired | notAtThisTime | other (n : Nat)
  deriving DecidableEq, Repr

/-- The AuthorizeRequest within DataTransfer: the certificate, or hash data. -/
inductive PncReq
  | hash (given : Bool) | certificate
  deriving DecidableEq, Repr

/-- What `data_transfer_pnc_authorize` gets from outside besides `Env`: whether hash data and a
certificate are passed, the result of the local check of the certificate, whether hash data can be made
from it, and the status the CSMS answers (`none`: no usable answer). -/
structure Pnc where
  hashData : Bool
  certificate : Bool
  verify : CertResult
  ocsp : Bool
  answer : PncReq → Option Status2

/-- What a Plug&Charge authorization gives: a status (`none`: undefined behaviour), the tables and the
requests sent to the CSMS. -/
structure PncResult where
  status : Option Status2
  db : Db
  sent : List PncReq

/-- A request is forwarded (charge_point_impl.cpp l.3791-3829). -/
def pncForward (p : Pnc) (r : PncReq) (db : Db) : PncResult :=
  { status := some ((p.answer r).getD .unknown), db := db, sent := [r] }

/-- A status decided locally. -/
def pncLocal (s : Status2) (db : Db) : PncResult := { status := some s, db := db, sent := [] }

/-- The station is online, no hash data were passed but a certificate (charge_point_impl.cpp
l.3722-3755). -/
def pncOnline (cfg : Config) (p : Pnc) (db : Db) : PncResult :=
  if p.verify = .issuerNotFound then
    if cfg.central.getD false then pncForward p .certificate db else pncLocal .invalid db
  else if p.ocsp then pncForward p (.hash false) db
  else if cfg.central.getD false then pncForward p .certificate db
  else pncLocal .invalid db

/-- List and cache for the eMAID (charge_point_impl.cpp l.3836-3842). -/
def pncList (cfg : Config) (env : Env) (k : Str) (db : Db) : PncResult :=
  match (authorize cfg env k true db).outcome with
  | .undefined => { status := none, db := (authorize cfg env k true db).db, sent := [] }
  | .info i =>
    { status := some (if i.status = .accepted then .accepted else .invalid),
      db := (authorize cfg env k true db).db, sent := [] }

/-- The station is offline and has a certificate (charge_point_impl.cpp l.3756-3791). -/
def pncOffline (cfg : Config) (env : Env) (p : Pnc) (k : Str) (db : Db) : PncResult :=
  if cfg.contractOffline then
    match p.verify with
    | .valid => if cfg.authorizeOffline then pncList cfg env k db else pncLocal .unknown db
    | .expired => pncLocal .expired db
    | _ => pncLocal .unknown db
  else pncLocal .notAtThisTime db

/-- `data_transfer_pnc_authorize` (charge_point_impl.cpp l.3676-3843). The websocket is dereferenced
without looking whether there is one (l.3709). -/
def pncAuthorize (cfg : Config) (env : Env) (p : Pnc) (k : Str) (db : Db) : PncResult :=
  if !cfg.pnc then pncLocal .invalid db
  else
    match env.ws with
    | none => { status := none, db := db, sent := [] }
    | some connected =>
      if connected && p.hashData then pncForward p (.hash true) db
      else if p.certificate then
        if connected then pncOnline cfg p db else pncOffline cfg env p k db
      else pncLocal .invalid db

/-! ### The local list -/

/-- The statements that write the list. -/
inductive Write
  | clear | version (v : Int) | put (k : Str) (i : Info) | del (k : Str) | ensureVersion
  deriving DecidableEq, Repr

/-- Effect of a statement: `clear_local_authorization_list`, `insert_or_update_local_list_version`,
`insert_or_update_local_authorization_list_entry`, `delete_local_authorization_list_entry`,
`insert_or_ignore_local_list_version(0)` (database_handler.cpp l.359-380, l.396-450, l.499-504). -/
def apply (db : Db) : Write → Db
  | .clear => { db with list := [] }
  | .version v => { db with version := some v }
  | .put k i => { db with list := put db.list k i }
  | .del k => { db with list := del db.list k }
  | .ensureVersion => { db with version := some (db.version.getD 0) }

def applyAll (db : Db) (ws : List Write) : Db := ws.foldl apply db

/-- `UpdateStatus` (include/ocpp/v16/ocpp_enums.hpp). -/
inductive ListStatus
  | accepted | failed | notSupported | versionMismatch
  deriving DecidableEq, Repr

/-- SendLocalList.req; an entry without idTagInfo asks for a removal. -/
structure ListReq where
  full : Bool
  version : Int
  entries : Option (List (Str × Option Info))
  deriving DecidableEq, Repr

/-- The statement for one entry (database_handler.cpp l.421-427). -/
def entryWrite : Str × Option Info → Write
  | (k, some i) => .put k i
  | (k, none) => .del k

/-- `insert_or_update_local_authorization_list` (database_handler.cpp l.417-438): all entries are
attempted; the call fails if one of them failed. `ok` says which statements succeed. -/
def insertAll (ok : Write → Bool) (es : List (Str × Option Info)) : Bool × List Write :=
  ((es.map entryWrite).all ok, (es.map entryWrite).filter ok)

/-- The version first, then the entries (charge_point_impl.cpp l.3160-3161, l.3173-3176). -/
def versionThenEntries (ok : Write → Bool) (v : Int) (es : List (Str × Option Info)) :
    ListStatus × List Write :=
  if ok (.version v) then
    ((if (insertAll ok es).1 then .accepted else .failed), .version v :: (insertAll ok es).2)
  else (.failed, [])

/-- `handleSendLocalListRequest` (charge_point_impl.cpp l.3145-3197): the answer and the statements
that took effect, in order. `readFails`: the version cannot be read. -/
def sendList (cfg : Config) (ok : Write → Bool) (readFails : Bool) (stored : Option Int) (r : ListReq) :
    ListStatus × List Write :=
  if !cfg.listProfile || !cfg.listEnabled then (.notSupported, [])
  else if r.full then
    match r.entries with
    | some es =>
      if ok .clear then
        ((versionThenEntries ok r.version es).1, .clear :: (versionThenEntries ok r.version es).2)
      else (.failed, [])
    | none =>
      if ok (.version r.version) then
        if ok .clear then (.accepted, [.version r.version, .clear])
        else (.failed, [.version r.version])
      else (.failed, [])
  else
    match r.entries with
    | none => (.failed, [])
    | some es =>
      if readFails then (.failed, [])
      else
        match stored with
        | none => (.failed, [.ensureVersion].filter ok)
        | some v =>
          if v < r.version then versionThenEntries ok r.version es else (.versionMismatch, [])

/-- The tables after SendLocalList. -/
def afterList (cfg : Config) (ok : Write → Bool) (readFails : Bool) (db : Db) (r : ListReq) : Db :=
  applyAll db (sendList cfg ok readFails db.version r).2

/-- The tables when the power fails after `n` statements of SendLocalList. No transaction is opened
around them. -/
def crashedList (n : Nat) (cfg : Config) (ok : Write → Bool) (readFails : Bool) (db : Db) (r : ListReq) :
    Db :=
  applyAll db ((sendList cfg ok readFails db.version r).2.take n)

/-- `handleGetLocalListVersionRequest` (charge_point_impl.cpp l.3199-3236): the version reported, `none`
for a CALLERROR, which is sent when the row is missing (it is then created). Failing statements are left
out. -/
def getVersion (cfg : Config) (db : Db) : Option Int × Db :=
  if !cfg.listProfile || !cfg.listEnabled then (some (-1), db)
  else if db.list.length = 0 then (some 0, db)
  else
    match db.version with
    | some v => (some v, db)
    | none => (none, apply db .ensureVersion)

/-! ### Histories -/

/-- What happens to the tables. `startConf k i`: StartTransaction.conf with idTagInfo `i` for a
transaction that was started with the tag `k`; `stopConf k i`: StopTransaction.conf with idTagInfo `i`
for a transaction that was started with the tag `k`; `storeOk`: the statement succeeds. `restart` runs
`init_sql`. -/
inductive Op
  | authorize (cfg : Config) (env : Env) (k : Str) (onlyLocal : Bool)
  | pnc (cfg : Config) (env : Env) (p : Pnc) (k : Str)
  | startConf (k : Str) (i : Info) (storeOk : Bool)
  | stopConf (k : Str) (i : Info) (storeOk : Bool)
  | clearCache (cfg : Config) (clearOk : Bool)
  | sendList (cfg : Config) (ok : Write → Bool) (readFails : Bool) (r : ListReq)
  | sendListCrash (n : Nat) (cfg : Config) (ok : Write → Bool) (readFails : Bool) (r : ListReq)
  | getVersion (cfg : Config)
  | restart

/-- `handleClearCacheRequest` (charge_point_impl.cpp l.2055-2076): answer (`none`: CALLERROR) and
tables. The optional key is tested, not its value. -/
def clearCache (cfg : Config) (clearOk : Bool) (db : Db) : Option Bool × Db :=
  if cfg.cache.isSome then
    if clearOk then (some true, { db with cache := [] }) else (none, db)
  else (some false, db)

/-- `TransactionHandler::get_authorized_id_tag` (lib/ocpp/v16/transaction.cpp l.261-268): the value found
is not returned, the result is always `std::nullopt`. -/
def authorizedIdTag (_k : Str) : Option Str := none

/-- One step. StartTransaction.conf: charge_point_impl.cpp l.2370-2376; StopTransaction.conf: l.2404-2414;
`init_sql`: database_handler.cpp l.23-30. -/
def step (db : Db) : Op → Db
  | .authorize cfg env k onlyLocal => (authorize cfg env k onlyLocal db).db
  | .pnc cfg env p k => (pncAuthorize cfg env p k db).db
  | .startConf k i storeOk => if storeOk then { db with cache := put db.cache k i } else db
  | .stopConf k i storeOk =>
    match authorizedIdTag k with
    | some t => if storeOk then { db with cache := put db.cache t i } else db
    | none => db
  | .clearCache cfg clearOk => (clearCache cfg clearOk db).2
  | .sendList cfg ok readFails r => afterList cfg ok readFails db r
  | .sendListCrash n cfg ok readFails r => crashedList n cfg ok readFails db r
  | .getVersion cfg => (getVersion cfg db).2
  | .restart => apply db .ensureVersion

def run (db : Db) (ops : List Op) : Db := ops.foldl step db

end Verif.Auth16
