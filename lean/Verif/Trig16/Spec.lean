import Verif.Trig16.Model

/-!
# What the CSMS may expect of triggered messages

Everything here is a function of what happened, not of the state of the charge point.
-/

namespace Verif.Trig16

open Conn16 (Status)

/-- The last piece of information of a kind in a history. -/
def last {α : Type} (f : Ev → Option α) (h : List Ev) : Option α := (h.filterMap f).getLast?

/-- A firmware update with this status is over, or there is none. -/
def over (s : Fw) : Bool :=
  [Fw.idle, .downloadFailed, .invalidSignature, .installationFailed, .installVerificationFailed, .installed].contains s

/-- The statuses that FirmwareStatusNotification of OCPP 1.6 knows, by their names. -/
def named : List (Fw × Fw16) :=
  [(.downloaded, .downloaded), (.downloadFailed, .downloadFailed), (.downloading, .downloading), (.idle, .idle),
    (.installationFailed, .installationFailed), (.installing, .installing), (.installed, .installed)]

/-- The status in FirmwareStatusNotification. -/
def lookup (s : Fw) : Option Fw16 := (named.find? (fun p => p.1 == s)).map Prod.snd

/-- The statuses that DiagnosticsStatusNotification knows. -/
def namedDiag : List (Log × Diag) :=
  [(.idle, .idle), (.uploaded, .uploaded), (.uploadFailure, .uploadFailed), (.uploading, .uploading)]

/-- The status in DiagnosticsStatusNotification. -/
def lookupDiag (s : Log) : Option Diag := (namedDiag.find? (fun p => p.1 == s)).map Prod.snd

/-- What the application tells about an upload of diagnostics. -/
def diagReport : Ev → Option Diag
  | .logStatus id s => if id = -1 then lookupDiag s else none
  | _ => none

/-- What the application tells about the upload of a log. -/
def logReport : Ev → Option (Log × Int)
  | .logStatus id s => if id = -1 then none else some (s, id)
  | _ => none

/-- What the application tells about an update of unsigned firmware, as far as OCPP 1.6 has a name for it or the update is
over. -/
def fwReport : Ev → Option Fw
  | .firmware id s => if id = -1 ∧ (lookup s ≠ none ∨ over s) then some s else none
  | _ => none

/-- What the application tells about an update of signed firmware. -/
def signedReport : Ev → Option (Fw × Int)
  | .firmware id s => if id = -1 then none else some (s, id)
  | _ => none

/-- The number of samples of a measurement at a connector. -/
def samples (c : Nat) : Ev → Option Nat
  | .measured d k => if d = c then some k else none
  | _ => none

/-- Status and error of a connector. -/
def situation (c : Nat) : Ev → Option (Status × Nat)
  | .connector d s e => if d = c then some (s, e) else none
  | _ => none

/-- Whether certificates can be signed: the name of the operator is known; a request can be made. -/
def ability : Ev → Option (Bool × Bool)
  | .security a b => some (a, b)
  | _ => none

/-- The status of the upload of diagnostics: Uploading while it goes on, else Idle. -/
def diagNow (h : List Ev) : Diag := if last diagReport h = some .uploading then .uploading else .idle

/-- The status of the upload of a log. -/
def logNow (s : Log) : Log := if s = .uploading then .uploading else .idle

/-- The status of an update of unsigned firmware: the last one told, or Idle if the update is over. -/
def fwNow (h : List Ev) : Fw16 :=
  match last fwReport h with
  | none => .idle
  | some s => if over s then .idle else (lookup s).getD .idle

/-- The status of an update of signed firmware. -/
def signedNow (s : Fw) : Fw := if over s then .idle else s

/-- Status and error of a connector now. -/
def situationNow (c : Nat) (h : List Ev) : Status × Nat := (last (situation c) h).getD (.available, 0)

/-- The ability to have certificates signed now. -/
def abilityNow (h : List Ev) : Bool × Bool := (last ability h).getD (false, false)

/-- There is such a connector, 0 being the charge point. -/
def Exists (n : Nat) (c : Option Int) : Prop := ∀ x, c = some x → 0 ≤ x ∧ x ≤ n

instance (n : Nat) (c : Option Int) : Decidable (Exists n c) :=
  match c with
  | none => isTrue (fun _ h => by cases h)
  | some x => if h : 0 ≤ x ∧ x ≤ n then isTrue (fun y hy => by cases hy; exact h) else isFalse (fun g => h (g x rfl))

/-- The connectors a request is about. -/
def addressed (n : Nat) : Option Int → List Nat
  | none => List.range (n + 1)
  | some x => [x.toNat]

/-- There is something measured at the connector. -/
def hasSamples (h : List Ev) (c : Nat) : Bool := decide (0 < (last (samples c) h).getD 0)

/-- The status notification of a connector. -/
def statusOf (h : List Ev) (c : Nat) : Out := .status c (situationNow c h).1 (situationNow c h).2

/-- The meter values of the connectors that were measured. -/
def metersOf (n : Nat) (h : List Ev) (c : Option Int) : List Out :=
  ((addressed n c).filter (hasSamples h)).map .meterValues

/-- The messages a TriggerMessage asks for. -/
def due (n : Nat) (h : List Ev) (c : Option Int) : Msg → List Out
  | .boot => [.boot]
  | .diagnostics => [.diag (diagNow h)]
  | .firmware => [.fw (fwNow h)]
  | .heartbeat => [.heartbeat]
  | .meterValues => metersOf n h c
  | .status => (addressed n c).map (statusOf h)

/-- The messages an ExtendedTriggerMessage asks for. Without any report the statuses are Idle; which request id they
should carry is left open here (any). -/
def dueExt (n : Nat) (h : List Ev) (c : Option Int) (anyId : Int) : Ext → List Out
  | .boot => [.boot]
  | .firmware =>
    match last signedReport h with
    | none => [.signed .idle anyId]
    | some (s, id) => [.signed (signedNow s) id]
  | .heartbeat => [.heartbeat]
  | .log =>
    match last logReport h with
    | none => [.log .idle anyId]
    | some (s, id) => [.log (logNow s) id]
  | .meterValues => metersOf n h c
  | .sign => if abilityNow h = (true, true) then [.sign] else []
  | .status => (addressed n c).map (statusOf h)

/-- The answer and the messages of a request that is served as it should be. -/
def served (messages : List Out) : List Out := .answer (!messages.isEmpty) :: messages

/-- What is sent to the CSMS. -/
def sent (o : List Out) : List Out := o.filter (fun x => x ≠ .prepare ∧ x ≠ .restore)

end Verif.Trig16
