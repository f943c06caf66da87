import Verif.MessageQueue.Theorems
import Verif.Tx.Theorems

/-
Model of an OCPP 2.x station as a whole as far as transactions are concerned: the transactions (`Verif.Tx`) on top of
the message queue (`Verif.MQ`). A TransactionEvent that the one hands over is a message of the other.

Files modelled:
  lib/ocpp/v2/functional_blocks/transaction.cpp l.206-249 (transaction_event_req)
  lib/ocpp/v2/message_dispatcher.cpp l.10-27 (dispatch_call)
  lib/ocpp/v2/message_queue.cpp l.9-31 (which requests are transactional, which of them are updates)

Simplifications, stated once:
  * Those of the two parts.
  * The thread of the queue does not run between two steps of one operation of the application. Only a TriggerMessage for
    all EVSEs hands over more than one message in one operation.
-/
set_option linter.constructorNameAsVariable false

namespace Verif.EndToEnd

open Verif.MQ (Kind Cfg BaseOp)

/-- How the queue sees a TransactionEvent: `is_transaction_message` holds for all, `is_transaction_update_message` for
those of type Updated (lib/ocpp/v2/message_queue.cpp l.9-28). -/
def kindOf (e : Tx.Event) : Kind := if e.type = .updated then .txUpdate else .txOther

/-- The request was initiated by a TriggerMessage
(lib/ocpp/v2/functional_blocks/remote_transaction_control.cpp l.278-293, l.369-389). -/
def triggeredOf (e : Tx.Event) : Bool := decide (e.trigger = .trigger)

/-- The hand-over of an event (transaction.cpp l.245: `dispatch_call`). -/
def handOp (e : Tx.Event) : BaseOp := .dispatch (kindOf e) (triggeredOf e)

/-- The station: its transactions, its queue, and which event is the content of which message of the queue (the payload,
which the model of the queue leaves out), in the order of handing over. -/
structure Station where
  tx : Tx.State
  mq : MQ.St
  bodies : List (Nat × Tx.Event)

/-- One event is handed over: the message gets the next number (transaction.cpp l.219 and l.245). -/
def hand (s : Station) (e : Tx.Event) : Station :=
  { s with
    mq := MQ.step s.mq (.run (handOp e))
    bodies := s.bodies ++ [(s.mq.nextId, e)] }

/-- Several events one after another. -/
def handAll (s : Station) (es : List Tx.Event) : Station := es.foldl hand s

/-- A power cut while the event is handed over, after `j` writes of the queue, and the next start of the queue. -/
def handCut (s : Station) (e : Tx.Event) (j : Nat) (cfg : Cfg) (ign : Bool) : Station :=
  { s with
    mq := MQ.step s.mq (.crash (handOp e) j cfg ign)
    bodies := s.bodies ++ [(s.mq.nextId, e)] }

/-- All events but the last are handed over; the power cut falls into the hand-over of the last, or, if there is none,
between two operations of the queue. -/
def handAllCut (s : Station) (es : List Tx.Event) (j : Nat) (cfg : Cfg) (ign : Bool) : Station :=
  match es.getLast? with
  | none => { s with mq := MQ.step s.mq (.run (.restart cfg ign)) }
  | some e => handCut (handAll s es.dropLast) e j cfg ign

/-- The events that a step of the transactions added. -/
def newEvents (old new : Tx.State) : List Tx.Event := (new.out.drop old.out.length).filterMap Tx.Out.event?

/-- What the queue does without the transactions: other messages, its thread, answers, timers, the connection. Restarts
and TransactionEvents are not among these. -/
def ownOp : BaseOp → Bool
  | .push k _ | .pushAsync k | .dispatch k _ | .dispatchAsync k _ => !(k = .txUpdate || k = .txOther || k = .txStart)
  | .restart _ _ => false
  | _ => true

/-- What happens to the station. -/
inductive Act where
  /-- An operation of the application or of the CSMS that concerns transactions. -/
  | app (o : Tx.Op)
  /-- Something the queue does. -/
  | queue (b : BaseOp)
  /-- The process ends and starts again between two operations, possibly with other EVSEs and another configuration. -/
  | restart (conns : List Nat) (cfg : Cfg) (ign : Bool)
  /-- A power cut after `k` steps of an operation; if the last of them is the hand-over of an event, after `j` of its
  writes; and the next start. -/
  | power (o : Tx.Op) (k j : Nat) (cfg : Cfg) (ign : Bool)
  /-- A power cut after `j` writes of something the queue does, and the next start. -/
  | powerQueue (b : BaseOp) (j : Nat) (cfg : Cfg) (ign : Bool)

/-- What an act is for the transactions. -/
def txCmd : Act → Option Tx.Cmd
  | .app o => if Tx.isBoot o then none else some (.op o)
  | .queue _ => none
  | .restart conns _ _ => some (.op (.boot conns))
  | .power o k _ _ _ => if Tx.isBoot o then none else some (.cut o k)
  | .powerQueue _ _ _ _ => some (.cut (.setResume true) 0)

/-- One act. After an exception that ended the process operations have no effect until the next start. -/
def step (s : Station) : Act → Station
  | .app o =>
    if Tx.isBoot o || s.mq.fault.isSome then s
    else
      let t := Tx.step s.tx (.op o)
      handAll { s with tx := t } (newEvents s.tx t)
  | .queue b =>
    if ownOp b then { s with mq := MQ.step s.mq (.run b) } else s
  | .restart conns cfg ign =>
    { s with
      tx := Tx.step s.tx (.op (.boot conns))
      mq := MQ.step s.mq (.run (.restart cfg ign)) }
  | .power o k j cfg ign =>
    if Tx.isBoot o || s.mq.fault.isSome then s
    else
      let t := Tx.step s.tx (.cut o k)
      handAllCut { s with tx := t } (newEvents s.tx t) j cfg ign
  | .powerQueue b j cfg ign =>
    if ownOp b then
      { s with
        tx := Tx.step s.tx (.cut (.setResume true) 0)
        mq := MQ.step s.mq (.crash b j cfg ign) }
    else s

def run (s : Station) (h : List Act) : Station := h.foldl step s

/-- A station that was never used. -/
def fresh (conns : List Nat) (resume : Bool) (cfg : Cfg) (now : Int) : Station :=
  { tx := Tx.clean conns resume, mq := MQ.init cfg now, bodies := [] }

end Verif.EndToEnd
