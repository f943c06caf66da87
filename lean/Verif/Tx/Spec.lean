import Verif.Tx.Model

/-
Vocabulary for the properties of transactions, resets and remote starts. Nothing here refers to how the
model computes; only to the history of operations and to what can be seen from outside (`State.out`),
and to which EVSEs have a running transaction.
-/
set_option linter.constructorNameAsVariable false

namespace Verif.Tx

open Verif.Auth (Str Token ciEq)

/-- The event inside an output, if it is one. -/
def Out.event? : Out → Option Event
  | .event e => some e
  | _ => none

/-- All TransactionEvents sent so far for transaction `x`, oldest first. -/
def events (out : List Out) (x : Str) : List Event :=
  (out.filterMap Out.event?).filter (fun e => e.txId = x)

/-- Their sequence numbers. -/
def seqNos (out : List Out) (x : Str) : List Nat := (events out x).map Event.seqNo

/-- Their types. -/
def types (out : List Out) (x : Str) : List EventType := (events out x).map Event.type

/-- The transaction id a command uses for a new transaction. -/
def startedId : Cmd → Option Str
  | .op (.start _ _ x _ _ _ _) => some x
  | .cut (.start _ _ x _ _ _ _) _ => some x
  | _ => none

/-- The application never uses a transaction id twice. -/
def FreshIds (h : List Cmd) : Prop := (h.filterMap startedId).Nodup

def isCut : Cmd → Bool
  | .cut _ _ => true
  | .op _ => false

/-- Number of power cuts in a history. -/
def cuts (h : List Cmd) : Nat := h.countP isCut

def opOf : Cmd → Op
  | .op o => o
  | .cut o _ => o

/-- No database write fails. -/
def DiskFine (h : List Cmd) : Prop := ∀ c ∈ h, opOf c ≠ .disk false

/-- No power cuts. -/
def NoCut (h : List Cmd) : Prop := ∀ c ∈ h, isCut c = false

def isBoot : Op → Bool
  | .boot _ => true
  | _ => false

/-- Neither power cuts nor restarts. -/
def NoRestart (h : List Cmd) : Prop := NoCut h ∧ ∀ c ∈ h, isBoot (opOf c) = false

/-- The events of an unfinished transaction: Started, then any number of Updated. -/
def Running (l : List EventType) : Prop :=
  ∃ n, l = .started :: List.replicate n .updated

/-- The events of a finished transaction: Started, any number of Updated, Ended. -/
def Finished (l : List EventType) : Prop :=
  ∃ n, l = .started :: List.replicate n .updated ++ [.ended]

/-- A remote start id given with an operation that asks for one. -/
def remoteIdOf : Cmd → Option Int
  | .op (.remoteStart _ _ rid) => some rid
  | .cut (.remoteStart _ _ rid) _ => some rid
  | _ => none

/-- The application itself passes no remote start id to `on_transaction_started`. -/
def NoOwnRemoteId : Cmd → Prop
  | .op (.start _ _ _ _ _ rid _) => rid = none
  | .cut (.start _ _ _ _ _ rid _) _ => rid = none
  | _ => True

/-- The events that carry the remote start id `rid`, over all transactions. -/
def carrying (out : List Out) (rid : Int) : List Event :=
  (out.filterMap Out.event?).filter (fun e => e.remoteStartId = some rid)

/-- Some EVSE of the station has a running transaction. -/
def AnyActive (s : State) : Prop := ∃ e, 1 ≤ e ∧ e ≤ s.conns.length ∧ (s.tx e).isSome = true

/-- Outputs added by an operation. -/
def Adds (s s' : State) (l : List Out) : Prop := s'.out = s.out ++ l

end Verif.Tx
