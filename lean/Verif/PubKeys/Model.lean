import Verif.Conf16.Model
/-!
The public keys of the meters of an OCPP 1.6 station: `set_powermeter_public_key` of the application, GetConfiguration for MeterPublicKey[n] and for all keys, the
file with the changes, and starting again.  lib/ocpp/v16/charge_point_configuration.cpp ("conf"), lib/ocpp/v16/charge_point_impl.cpp ("impl").

Simplifications: the schema (config/v16/profile_schemas/Internal.json l.377-384) admits only arrays of strings, so `is_array` is always true after the start.  The
other configuration keys are those of Verif/Conf16; here they are given by the environment and can always be read.  NumberOfConnectors is read only and does not
change.
-/

namespace Verif.PubKeys

open Verif.Conf16 (Text bytes Write)

/-- The station: NumberOfConnectors, and MeterPublicKeys in the configuration given by the application, in `config`, and in the file with the changes (`none`: the
file cannot be parsed; `some none`: there is no such entry). -/
structure St where
  n : Nat
  base : Option (List Text)
  cfg : Option (List Text)
  user : Option (Option (List Text))
  deriving DecidableEq, Repr

/-- What `set_powermeter_public_key` gives to the application: its value or an exception. -/
inductive Ret
  | val (b : Bool)
  | throws
  deriving DecidableEq, Repr

/-- `setMeterPublicKey` l.3238-3243: a missing or empty array is replaced by empty texts, one for each connector. -/
def prepared (s : St) : List Text :=
  match s.cfg with
  | none => List.replicate s.n []
  | some [] => List.replicate s.n []
  | some (k :: l) => k :: l

/-- `setInUserConfig`, conf l.226-247, for MeterPublicKeys; `get_user_config` throws if the file cannot be parsed. -/
def store (s : St) (l : List Text) (w : Write) : St × Ret :=
  match s.user with
  | none => (s, .throws)
  | some _ => match w with
    | .ok => ({ s with user := some (some l) }, .val true)
    | .fsError => (s, .val true)
    | .full => ({ s with user := none }, .val true)

/-- `setMeterPublicKey`, conf l.3231-3255, called by `set_powermeter_public_key`, impl l.1997-1999. -/
def setKey (s : St) (c : Int) (key : Text) (w : Write) : St × Ret :=
  if c > s.n ∨ c < 1 then (s, .val false)
  else if (prepared s).length < c.toNat then ({ s with cfg := some (prepared s) }, .val false)
  else store { s with cfg := some ((prepared s).set (c.toNat - 1) key) } ((prepared s).set (c.toNat - 1) key) w

/-- The process starts again: the application merges the file into the configuration, an array as a whole (src/charge_point.cpp l.82-93); `none`: it cannot. -/
def restart (s : St) : Option St :=
  match s.user with
  | none => none
  | some u => some { s with cfg := u.orElse (fun _ => s.base) }

/-! ## Reading -/

/-- The beginning of the name of a key, conf l.3341. -/
def pre : Text := "MeterPublicKey[".toList

/-- `std::isdigit`. -/
def isDigit (c : Char) : Bool := decide ('0'.toNat ≤ c.toNat ∧ c.toNat ≤ '9'.toNat)

/-- `std::stoull` of digits, without the limit. -/
def number (ds : Text) : Nat := ds.foldl (fun a c => 10 * a + (c.toNat - '0'.toNat)) 0

/-- `parse_meter_public_key_index`, conf l.3340-3376; `std::stoull` throws from 2^64 on. -/
def parseIndex (t : Text) : Option Nat :=
  if t.length ≤ pre.length + 1 then none
  else if pre.isPrefixOf t = false then none
  else if t.drop (t.length - 1) ≠ [']'] then none
  else
    let ds := (t.drop pre.length).take (t.length - pre.length - 1)
    if ds.isEmpty then none
    else if ds.all isDigit = false then none
    else if number ds ≥ 2 ^ 64 then none
    else if number ds > 2 ^ 32 - 1 then none
    else some (number ds)

/-- A configuration key as reported. -/
structure Kv where
  key : Text
  readonly : Bool
  value : Text
  deriving DecidableEq, Repr

/-- What reading a key gives: nothing, a value, or an exception. -/
inductive Got
  | unknown
  | kv (x : Kv)
  | throws
  deriving DecidableEq, Repr

/-- `std::to_string` of a number. -/
def decimal (n : Nat) : Text := Nat.toDigits 10 n

/-- The name of the key of connector `k`, conf l.3201 and l.3221. -/
def keyName (k : Nat) : Text := pre ++ decimal k ++ [']']

/-- A read only key value; the value is a `CiString<500>`, whose assignment throws if the text is longer. -/
def mkKv (key value : Text) : Got := if bytes value > 500 then .throws else .kv ⟨key, true, value⟩

/-- `getPublicKeyKeyValue`, conf l.3184-3205. -/
def getPublicKey (s : St) (k : Nat) : Got :=
  match s.cfg with
  | none => .unknown
  | some l => if l.length < k ∨ k < 1 then .unknown else mkKv (keyName k) (l.getD (k - 1) [])

/-- The other configuration keys: what `get` gives for a name, and what is reported before and after the public keys if all keys are asked for. -/
structure Env where
  other : Text → Option Kv
  before : List Kv
  after : List Kv

/-- `get`, conf l.3378-3785: the part for the public keys is l.3630-3647. -/
def get (env : Env) (s : St) (key : Text) : Got :=
  if pre.isPrefixOf key then
    match parseIndex key with
    | none => .unknown
    | some k => if k = 0 then .unknown else getPublicKey s k
  else match env.other key with
    | none => .unknown
    | some kv => .kv kv

/-- The loop over the keys of the array, conf l.3218-3226. -/
def allFrom : Nat → List Text → Option (List Kv)
  | _, [] => some []
  | i, v :: l => match mkKv (keyName (i + 1)) v with
    | .kv x => (allFrom (i + 1) l).map (x :: ·)
    | _ => none

/-- `getAllMeterPublicKeyKeyValues`, conf l.3207-3229; `none`: an exception. -/
def allPublic (s : St) : Option (List Kv) :=
  match s.cfg with
  | none => some []
  | some l => allFrom 0 l

/-- `get_all_key_value`, conf l.3787-3824. -/
def getAll (env : Env) (s : St) : Option (List Kv) :=
  (allPublic s).map (fun l => env.before ++ l ++ env.after)

/-- The answer to GetConfiguration: the keys and the unknown keys, or the CALLERROR FormationViolation together with the security event InvalidMessages. -/
inductive Answer
  | result (known : List Kv) (unknown : List Text)
  | error
  deriving DecidableEq, Repr

/-- The loop of `get_configuration_key`, impl l.4938-4946; `none`: an exception. -/
def collect (env : Env) (s : St) : List Text → Option (List Kv × List Text)
  | [] => some ([], [])
  | k :: r => match get env s k with
    | .throws => none
    | .unknown => (collect env s r).map (fun p => (p.1, k :: p.2))
    | .kv x => (collect env s r).map (fun p => (x :: p.1, p.2))

/-- `get_configuration_key`, impl l.4923-4957, `handleGetConfigurationRequest`, impl l.2127-2133, and the answer to a `StringConversionException`, impl
l.1463-1471. -/
def getConfiguration (env : Env) (s : St) (keys : Option (List Text)) : Answer :=
  match keys.getD [] with
  | [] => match getAll env s with
    | some l => .result l []
    | none => .error
  | k :: r => match collect env s (k :: r) with
    | some p => .result p.1 p.2
    | none => .error

/-! ## Histories -/

/-- What happens: the application sets a key, or the process starts again. -/
inductive Op
  | set (c : Int) (key : Text) (w : Write)
  | restart
  deriving DecidableEq, Repr

/-- One step; `none`: the station cannot start. -/
def step (s : St) : Op → Option St
  | .set c key w => some (setKey s c key w).1
  | .restart => restart s

/-- All steps. -/
def run (s : St) : List Op → Option St
  | [] => some s
  | o :: r => (step s o).bind (run · r)

/-- The station at the first start, with the keys in the configuration of the application. -/
def init (n : Nat) (base : Option (List Text)) : St := ⟨n, base, base, some none⟩

end Verif.PubKeys
