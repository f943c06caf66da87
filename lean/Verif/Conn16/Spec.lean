import Verif.Conn16.Model

set_option linter.constructorNameAsVariable false

/-!
# Specification vocabulary for OCPP 1.6 connectors

Notions in terms of inputs and observable effects, used by the statements in `Theorems.lean`.
-/

namespace Verif.Conn16

/-! ## Errors of a history -/

/-- The input clears the error with this id. -/
def Clears (o : FOp) (u : String) : Prop := o = .clear u ∨ o = .clearAll

/-- Every error raised with this id in the history was cleared later in it. -/
def Settled (ops : List FOp) (u : String) : Prop :=
  ∀ p e q, ops = p ++ .error e :: q → e.uuid = u → ∃ o ∈ q, Clears o u

/-- The error is active after the history: it was raised when no error with its id was active and
has not been cleared since. -/
def Active (ops : List FOp) (e : Err) : Prop :=
  ∃ p q, ops = p ++ .error e :: q ∧ Settled p e.uuid ∧ ∀ o ∈ q, ¬ Clears o e.uuid

/-- The history without errors: only its events. -/
def eventsOnly (ops : List FOp) : List FOp := ops.filter (fun | .event _ => true | _ => false)

/-! ## Transitions of OCPP 1.6 (section 4.9 of the specification, table of status transitions) -/

/-- The rows of the table; every status may change to Faulted and back to any status. -/
def Allowed (a b : Status) : Prop :=
  b = .faulted ∨
  match a with
  | .available => b ∈ [.preparing, .charging, .suspendedEV, .suspendedEVSE, .reserved, .unavailable]
  | .preparing => b ∈ [.available, .charging, .suspendedEV, .suspendedEVSE, .finishing]
  | .charging => b ∈ [.available, .suspendedEV, .suspendedEVSE, .finishing, .unavailable]
  | .suspendedEV => b ∈ [.available, .charging, .suspendedEVSE, .finishing, .unavailable]
  | .suspendedEVSE => b ∈ [.available, .charging, .suspendedEV, .finishing, .unavailable]
  | .finishing => b ∈ [.available, .preparing, .unavailable]
  | .reserved => b ∈ [.available, .preparing, .unavailable]
  | .unavailable => b ∈ [.available, .preparing, .charging, .suspendedEV, .suspendedEVSE]
  | .faulted => True

/-! ## Observations -/

/-- The StatusNotification requests sent for a connector, in order. -/
def sent (out : List Out) (c : Nat) : List Note :=
  out.filterMap fun | .status x n => if x = c then some n else none | _ => none

/-- The calls of the callbacks enabling (true) and disabling (false) a connector, in order. -/
def calls (out : List Out) (c : Nat) : List Bool :=
  out.filterMap fun
    | .enable x => if x = c then some true else none
    | .disable x => if x = c then some false else none
    | _ => none

/-- What the application was last told about the availability of the connector. -/
def told (s : State) (c : Nat) : Option Bool := (calls s.out c).getLast?

/-- The connector exists (connector 0 stands for the charge point). -/
def Exists (n : Nat) (ci : Int) : Prop := 0 ≤ ci ∧ ci ≤ n

/-- A request for `ci` names connector `c`: directly, or because it names the whole charge point. -/
def Names (n : Nat) (ci : Int) (c : Nat) : Prop := Exists n ci ∧ c ≤ n ∧ (ci = c ∨ ci = 0)

/-- A change of the connector has to wait: a transaction is running or being prepared. -/
def Waits (s : State) (c : Nat) : Prop := 1 ≤ c ∧ (s.tx c = true ∨ getState s c = .preparing)

/-- Some transaction is running. -/
def AnyTx (s : State) : Prop := ∃ c, 1 ≤ c ∧ c ≤ s.n ∧ s.tx c = true

/-- The availability the CSMS last asked for in the history, for a connector of a charge point with
`n` connectors; Operative if it never did. -/
def wanted (n : Nat) (c : Nat) (ops : List Op) : Bool :=
  ops.foldl (fun a o => match o with
    | .change ci op => if (0 ≤ ci ∧ ci ≤ n) ∧ c ≤ n ∧ (ci = c ∨ ci = 0) then op else a
    | _ => a) true

/-- The operation is about a firmware update. -/
def isFirmware : Op → Bool | .firmware _ => true | _ => false

/-- A transaction may be started remotely on this connector: it is in service, not in use, and not
reserved for somebody else. -/
def MayStart (s : State) (r : Remote) (c : Nat) : Prop :=
  1 ≤ c ∧ c ≤ s.n ∧ s.tx c = false ∧
  getState s c ∉ [Status.unavailable, .faulted, .finishing] ∧
  ¬ (getState s c = .reserved ∧ c ∈ r.otherToken)

/-- The call is one an application makes for connector 0: errors, and availability. -/
def zeroOk : Op → Bool
  | .sessionStarted c _ | .sessionStopped c | .suspendEV c | .suspendEVSE c | .resume c
  | .reservationStart c | .reservationEnd c | .plugTimeout c => c != 0
  | _ => true

end Verif.Conn16
