import Verif.EndToEnd.Model

/-
Vocabulary for the properties of the whole station: what the CSMS sees of the transactions.
-/

namespace Verif.EndToEnd

open Verif.MQ (Kind)

/-- All TransactionEvents that the station has decided to send, oldest first. -/
def decided (s : Station) : List Tx.Event := s.tx.out.filterMap Tx.Out.event?

/-- The content of the message with number `i`. -/
def content (s : Station) (i : Nat) : Option Tx.Event := s.bodies.lookup i

/-- Is a message a TransactionEvent request? -/
def isEvent (k : Kind) : Bool := decide (k = .txUpdate) || decide (k = .txOther)

/-- The TransactionEvent requests transmitted so far, in the order of their transmission; a repeated transmission
appears again. -/
def wire (s : Station) : List Tx.Event :=
  s.mq.trace.filterMap fun
    | .send m => if isEvent m.kind then content s m.iid else none
    | _ => none

/-- Those of transaction `x`. -/
def wireOf (s : Station) (x : Verif.Auth.Str) : List Tx.Event := (wire s).filter (fun e => e.txId = x)

/-- The CSMS has answered the message with number `i`. -/
def Answered (s : Station) (i : Nat) : Prop := ∃ u, .answer u i ∈ s.mq.trace

/-- The numbers of the answered messages. -/
def answers (s : Station) : List Nat := s.mq.trace.filterMap fun
  | .answer _ i => some i
  | _ => none

/-- The TransactionEvents of transaction `x` that the CSMS has answered, in the order in which the station decided to
send them. -/
def received (s : Station) (x : Verif.Auth.Str) : List Tx.Event :=
  ((s.bodies.filter (fun b => (answers s).contains b.1)).map (·.2)).filter (fun e => e.txId = x)

/-- The queue still holds it. -/
def Pending (s : Station) (i : Nat) : Prop := i ∈ MQ.pendingTx s.mq.trace

/-- It was given up after a timeout or a CALLERROR. -/
def GivenUp (s : Station) (i : Nat) : Prop := .done i .gaveUp ∈ s.mq.trace ∧ ∃ u, .failed u i ∈ s.mq.trace

/-- It was dropped because the queue was full. -/
def Dropped (s : Station) (i : Nat) : Prop := .done i .evicted ∈ s.mq.trace

/-- Neither a power cut inside an operation nor an end of the operation of the queue; restarts between operations are
allowed. -/
def calm : Act → Bool
  | .power _ _ _ _ _ | .powerQueue _ _ _ _ | .queue .stop => false
  | _ => true

end Verif.EndToEnd
