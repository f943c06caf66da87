import Verif.Conf16.Model
import Verif.DeviceModel.Spec
/-! What the theorems about the configuration of an OCPP 1.6 station speak about. -/

namespace Verif.Conf16

/-- The answer is a refusal: Rejected, NotSupported or a CALLERROR. -/
def Refused (a : Status) : Prop := a ≠ .accepted ∧ a ≠ .rebootRequired

/-- The key is one of the standard keys, and its feature profile is supported. -/
def Known (env : Env) (e : Key) : Prop := e ∈ table ∧ (e.gated = true → env.sup e.sect = true)

/-- The texts are the same up to case. -/
def SameName (a b : Text) : Prop := a.map Char.toLower = b.map Char.toLower

/-- The names of custom keys are not those of other keys. -/
def Fresh (m : Maps) : Prop := ∀ k, m.cust k ≠ none → (∀ e ∈ table, ciEq k e.name = false) ∧ ciEq k authKey = false

/-- The value `x` is what the text `t` says for a key of this type. -/
def Reads (env : Env) (ty : Ty) (t : Text) (x : Val) : Prop :=
  match ty with
  | .bool => ∃ b, x = .bool b ∧ (b = true ↔ SameName t "true".toList)
  | .int _ _ => ∃ m, x = .int m ∧ ∀ n, DM.IsIntegerText t n → m = n
  | .str _ _ => x = .text t
  | .list => False
  | .obj => ∃ j, env.parse t = some j ∧ x = .json j

/-- The text `r` says what the value `x` is. -/
def Tells (x : Val) (r : Text) : Prop :=
  match x with
  | .bool true => r = "true".toList
  | .bool false => r = "false".toList
  | .int n => DM.IsIntegerText r n
  | .text t => r = t
  | .list l => r = List.intercalate [','] l
  | .json j => r = j.shown

/-- The text is a legal value for a key of this type. -/
def Legal (ty : Ty) (t : Text) : Prop :=
  match ty with
  | .bool => SameName t "true".toList ∨ SameName t "false".toList
  | .int lo hi => ∃ n, DM.IsIntegerText t n ∧ (∀ l, lo = some l → l ≤ n) ∧ (∀ h, hi = some h → n ≤ h)
  | .str lo hi => lo ≤ t.length ∧ ∀ h, hi = some h → t.length ≤ h
  | _ => True

/-- Boolean keys that take every text: "yes" and "1" are stored as false. -/
def anyTextKeys : List Text :=
  ["AllowChargingProfileWithoutStartSchedule".toList, "AuthorizeRemoteTxRequests".toList, "ISO15118CertificateManagementEnabled".toList,
    "ISO15118PnCEnabled".toList, "CentralContractValidationAllowed".toList, "ContractValidationOffline".toList, "DisableSecurityEventNotifications".toList,
    "CustomIdleFeeAfterStop".toList]

/-- Keys whose checks let through values that their schema does not admit. -/
def looseKeys : List Text :=
  ["CompositeScheduleDefaultNumberPhases".toList, "ConnectorEvseIds".toList, "CentralSystemURI".toList, "TimeOffset".toList, "TimeOffsetNextTransition".toList,
    "NextTimeOffsetTransitionDateTime".toList, "SecurityProfile".toList]

def Ascii (t : Text) : Prop := ∀ c ∈ t, c.toNat < 128

/-! ## Histories -/

/-- What happens to a station.  The times are arbitrary. -/
inductive Op
  | change (now : Int) (key value : Text) (w : Write)     -- ChangeConfiguration, or the function of the API
  | stopped (w : Write)                                   -- the connection was closed by the station, or it gave up connecting
  | connected                                             -- a connection was established
  | information (name value : Text) (crash : Bool)        -- the application sets vendor, model, serial numbers …
  | restart                                               -- the process ends, anyhow, and starts again

/-- One step; `none`: the process cannot start. -/
def step (env : Env) (s : St) : Op → Option St
  | .change now k t w => some (change env s now k t w).1
  | .stopped w => some (stoppedConnecting s w)
  | .connected => some (connected s)
  | .information n v c => some (information s n v c)
  | .restart => restart env s

def run (env : Env) (s : St) : List Op → Option St
  | [] => some s
  | op :: r => match step env s op with
    | some s => run env s r
    | none => none

/-- The file could be written, and the process did not end while it was written in place. -/
def Op.written : Op → Prop
  | .change _ _ _ w => w = .ok
  | .stopped w => w = .ok
  | .information _ _ c => c = false
  | _ => True

/-- The texts are within the limits of the schema, the authorization key is long enough after decoding, and JSON values are those that the schema admits. -/
def Op.safe (env : Env) : Op → Prop
  | .change _ k t _ => (∀ e ∈ table, SameName k e.name → ∀ lo hi, e.ty = .str lo hi → Legal e.ty t)
      ∧ (SameName k authKey → 8 ≤ (decode t).length)
      ∧ (∀ j, env.parse t = some j → j.good = true)
  | .information n v _ => ∀ e ∈ table, e.name = n → Legal e.ty v
  | _ => True

/-- The security profile of the last connection that was established; `c`: the one before. -/
def Op.profile (s : St) (c : Int) : Op → Int
  | .connected => profileOf s
  | _ => c

/-- A history together with the security profile of the last connection that was established; `c`: the one before. -/
def runC (env : Env) (s : St) (c : Int) : List Op → Option (St × Int)
  | [] => some (s, c)
  | op :: r => match step env s op with
    | some s' => runC env s' (op.profile s c) r
    | none => none

/-- The first start: the configuration of the application and the file with the changes of earlier times. -/
def boot (env : Env) (base user : Maps) : Option St := restart env { base := base, cfg := base, user := some user, cb := none }

end Verif.Conf16
