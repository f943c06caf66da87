import Verif.MessageQueue.Model

/-!
# Vocabulary for the message-queue properties

Everything here is defined on traces (what an observer sees, in chronological order), not on the
queue's internal state.
-/

namespace Verif.MQ

/-- The application-order numbers (`iid`) of all transmissions of transaction-related CALLs, in wire order. -/
def txSends (tr : List Ev) : List Nat :=
  tr.filterMap fun
    | .send m => if m.kind.isTx then some m.iid else none
    | _ => none

/-- The numbers of all messages handed over by the application and accepted by the queue, in that order. -/
def pushIds (tr : List Ev) : List Nat :=
  tr.filterMap fun
    | .push i _ => some i
    | _ => none

/-- Transaction-related messages handed over by the application and not yet finished (answered, given
up, evicted or ignored), oldest first. -/
def pendStep (l : List Nat) : Ev → List Nat
  | .push i k => if k.isTx then l ++ [i] else l
  | .done i _ => l.filter (· != i)
  | _ => l

@[inherit_doc pendStep] def pendingTx (tr : List Ev) : List Nat := tr.foldl pendStep []

/-- The part of the trace since the process was last started. -/
def sinceStep (l : List Ev) : Ev → List Ev
  | .restart => []
  | e => l ++ [e]

@[inherit_doc sinceStep] def sinceRestart (tr : List Ev) : List Ev := tr.foldl sinceStep []

/-- Is `e` a transmission of the message with number `i`? -/
def isSendOf (i : Nat) : Ev → Bool
  | .send m => m.iid == i
  | _ => false

/-- Number of transmissions of message `i`. -/
def sendCount (i : Nat) (tr : List Ev) : Nat := tr.countP (isSendOf i)

/-- Number of times the future of message `i` was fulfilled. -/
def fulfilCount (i : Nat) (tr : List Ev) : Nat :=
  tr.countP fun
    | .fulfil j _ => j == i
    | _ => false

/-- The CALL that is outstanding after a trace: transmitted, and neither answered nor handled as failed (timeout,
CALLERROR), and the station not restarted since. -/
def openStep (o : Option Nat) : Ev → Option Nat
  | .send m => some m.uid
  | .answer u _ => if o = some u then none else o
  | .failed u _ => if o = some u then none else o
  | .restart => none
  | _ => o

@[inherit_doc openStep] def openCall (tr : List Ev) : Option Nat := tr.foldl openStep none

/-- The same in terms of what happens on the network and the clock: a CALL is outstanding until its CALLRESULT or
CALLERROR arrives, its response time is over, or the station restarts. -/
def netStep (o : Option Nat) : Ev → Option Nat
  | .send m => some m.uid
  | .answer u _ => if o = some u then none else o
  | .errRecv u => if o = some u then none else o
  | .timerFired u => if o = some u then none else o
  | .restart => none
  | _ => o

@[inherit_doc netStep] def netOpen (tr : List Ev) : Option Nat := tr.foldl netStep none

/-- Has a BootNotification been accepted since the last start? -/
def accStep (b : Bool) : Ev → Bool
  | .accepted => true
  | .restart => false
  | _ => b

@[inherit_doc accStep] def acceptedNow (tr : List Ev) : Bool := tr.foldl accStep false

/-- The last request of the CSMS that has not been replied to. -/
def replyStep (o : Option Nat) : Ev → Option Nat
  | .csmsCall u => some u
  | .reply u => if o = some u then none else o
  | .restart => none
  | _ => o

@[inherit_doc replyStep] def unreplied (tr : List Ev) : Option Nat := tr.foldl replyStep none

/-- A history without split critical sections: an expired response timer's callback and the handling of a CALLERROR
run immediately. -/
def BaseOp.serial : BaseOp → Bool
  | .recvError _ | .runError | .timerFire | .runTimeout => false
  | _ => true

def Op.serial : Op → Bool
  | .run b => b.serial
  | .crash b _ _ _ => b.serial

end Verif.MQ
