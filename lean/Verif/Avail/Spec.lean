import Verif.Avail.Model

/-
Vocabulary for the properties of availability. Nothing here refers to how the model computes; only to
what is seen from outside and to the individually set statuses.
-/
set_option linter.constructorNameAsVariable false

namespace Verif.Avail

/-- The calls of the callback for the station, oldest first. -/
def callsCs (out : List Out) : List Bool :=
  out.filterMap (fun o => match o with
    | .csChanged b => some b
    | _ => none)

/-- The calls of the callback for EVSE `e`. -/
def callsEvse (out : List Out) (e : Nat) : List Bool :=
  out.filterMap (fun o => match o with
    | .evseChanged e' b => if e' = e then some b else none
    | _ => none)

/-- The calls of the callback for connector `c` of EVSE `e`. -/
def callsConn (out : List Out) (e c : Nat) : List Bool :=
  out.filterMap (fun o => match o with
    | .connChanged e' c' b => if e' = e ∧ c' = c then some b else none
    | _ => none)

/-- The StatusNotifications sent for connector `c` of EVSE `e`, oldest first. -/
def notes (out : List Out) (e c : Nat) : List Status :=
  out.filterMap (fun o => match o with
    | .status e' c' st => if e' = e ∧ c' = c then some st else none
    | _ => none)

/-- The calls `l` follow a value that is now `b`: each call differs from the one before, the last is `b`. -/
def Tracks (l : List Bool) (b : Bool) : Prop := 
  l.getLast? = some b ∧ ∀ p x y q, l = p ++ x :: y :: q → x ≠ y

/-- The status individually set for a component (true: Operative). -/
def individual (s : State) : Target → Bool
  | .station => s.cs
  | .evse e => s.evse e
  | .conn e c => s.conn e c

/-- The way a request names a component. -/
def naming : Target → Option (Int × Option Int)
  | .station => none
  | .evse e => some ((e : Int), none)
  | .conn e c => some ((e : Int), some (c : Int))

/-- The component exists. -/
def Exists (conns : List Nat) : Target → Prop
  | .station => True
  | .evse e => 1 ≤ e ∧ e ≤ conns.length
  | .conn e c => 1 ≤ e ∧ e ≤ conns.length ∧ 1 ≤ c ∧ c ≤ numConns conns e

/-- A transaction runs that the component has to wait for: any for the station, else that of its EVSE. -/
def Busy (s : State) : Target → Prop
  | .station => ∃ e, 1 ≤ e ∧ e ≤ s.conns.length ∧ (s.tx e).isSome = true
  | .evse e => (s.tx e).isSome = true
  | .conn e _ => (s.tx e).isSome = true

def isBoot : Op → Bool
  | .boot _ _ => true
  | _ => false

def isStart : Op → Bool
  | .start => true
  | _ => false

/-- The operation is a ChangeAvailability request that names this component. -/
def Requests (t : Target) : Op → Prop
  | .change r => r.evse = naming t
  | _ => False

/-- The operation is a ChangeAvailability request for the same EVSE (or any of its connectors), or, for
the station, for the station. -/
def RequestsEvse (t : Target) : Op → Prop
  | .change r => r.evse.map Prod.fst = (naming t).map Prod.fst
  | _ => False

def isFirmware : Op → Bool
  | .firmwarePrepare => true
  | .firmwareRestore => true
  | _ => false

/-- Nothing pending would be persisted for the component. -/
def NoneFor (t : Target) (s : State) : Prop :=
  ∀ k sc, s.sched k = some sc → sc.persist = true → sc.req.evse ≠ naming t

/-- A plug event that comes while the connector is reserved. -/
def SilentPlug (e c : Nat) (s : State) (o : Op) : Prop :=
  (s.flags e c).reserved = true ∧ (o = .event e c .plugIn ∨ o = .event e c .plugOut)

/-- A plug event of the connector while it is reserved happens in the history. -/
def PlugWhileReserved (e c : Nat) : State → List Op → Prop
  | _, [] => False
  | s, o :: h => SilentPlug e c s o ∨ PlugWhileReserved e c (step s o) h

/-- The last of the two events the application reported for the connector is `on`. -/
def Since (on off : Event) (e c : Nat) (h : List Op) : Prop :=
  ∃ p q, h = p ++ .event e c on :: q ∧ .event e c off ∉ q

/-- Operations that are neither requests of the CSMS, nor about firmware, nor restarts. -/
def ordinary : Op → Bool
  | .change _ => false
  | .firmwarePrepare => false
  | .firmwareRestore => false
  | .boot _ _ => false
  | _ => true

end Verif.Avail
