/-!
# Sending and receiving

The way of a message from `send` to the connection: `send`, `poll_message`, `on_conn_writable`, `send_internal`
(`lib/ocpp/common/websocket/websocket_libwebsockets.cpp` l.1066-1200, 1632-1700), and the way of a received message from
the connection to the queue of received messages (l.1389-1402, 1620-1630).

`lws_write` either takes the whole message or fails; libwebsockets buffers what the connection does not take at once.  Not
modelled: the thread that calls `send` and waits up to one second for `message_sent`; the theorems say for every time at
which it could look what it would find.
-/

namespace Verif.Sock

/-- A `WebsocketMessage` (`websocket_libwebsockets.hpp` l.20-40); `written` stands for `sent_bytes ≥ payload.length()`,
which is true from the start for an empty payload. -/
structure OutMsg where
  id : Nat
  payload : List Char
  written : Bool
deriving DecidableEq, Repr

/-- The state: the connection, `message_queue`, the messages with `message_sent`, what was given to libwebsockets
successfully, and the number of calls of `send` so far (a message is identified by the number of its call). -/
structure Sender where
  connected : Bool := false
  queue : List OutMsg := []
  sent : List Nat := []
  wire : List (Nat × List Char) := []
  next : Nat := 0
deriving DecidableEq, Repr

/-- What happens: `send` is called, libwebsockets calls back because the connection is writable (and the write then
succeeds or not), the connection is lost or closed, or established. -/
inductive SendEvent
  | send (payload : List Char)
  | writable (ok : Bool)
  | lost
  | connect
deriving DecidableEq, Repr

/-- The messages at the front that are completely written (`on_conn_writable` l.1651-1675) are done. -/
def popWritten (s : Sender) : Sender :=
  { s with
    queue := s.queue.dropWhile (·.written)
    sent := s.sent ++ (s.queue.takeWhile (·.written)).map (·.id) }

/-- One message is given to libwebsockets (l.1680-1700, `send_internal` l.1066-1107). -/
def writeFirst (s : Sender) (ok : Bool) : Sender :=
  match s.queue with
  | [] => s
  | m :: q =>
    if ok then
      { s with
        queue := { m with written := true } :: q
        wire := s.wire ++ [(m.id, m.payload)] }
    else s

/-- One event. -/
def sendStep (s : Sender) : SendEvent → Sender
  -- `send` l.1165-1180, `poll_message` l.1128-1150: without a connection the message is not queued
  | .send p =>
    if s.connected then
      { s with
        queue := s.queue ++ [⟨s.next, p, p.isEmpty⟩]
        next := s.next + 1 }
    else { s with next := s.next + 1 }
  | .writable ok => if s.connected then writeFirst (popWritten s) ok else s
  -- `on_conn_fail` l.1613, `on_conn_close` l.1569: `clear_all_queues`
  | .lost =>
    { s with
      connected := false
      queue := [] }
  -- `on_conn_connected` l.1530, 1543
  | .connect =>
    { s with
      connected := true
      queue := [] }

/-- The state after a list of events. -/
def sendRun (s : Sender) (es : List SendEvent) : Sender := es.foldl sendStep s

/-! ## Receiving -/

/-- What libwebsockets passes on: a piece of a frame, with the remark whether it is the last one of the frame
(`lws_remaining_packet_payload(wsi) <= 0`), or the loss of the connection. -/
inductive RecvEvent
  | piece (bytes : List Char) (endOfFrame : Bool)
  | lost
deriving DecidableEq, Repr

/-- `recv_buffered_message` and `recv_message_queue` (without the thread that takes messages from it). -/
structure Receiver where
  buffer : List Char := []
  messages : List (List Char) := []
deriving DecidableEq, Repr

/-- `LWS_CALLBACK_CLIENT_RECEIVE` (l.1389-1402), `on_conn_fail` (l.1613; only the buffer is looked at, the messages are
those that were passed on so far). -/
def recvStep (r : Receiver) : RecvEvent → Receiver
  | .piece b last =>
    if last then
      { r with
        buffer := []
        messages := r.messages ++ [r.buffer ++ b] }
    else { r with buffer := r.buffer ++ b }
  | .lost => { r with buffer := [] }

/-- The state after a list of events. -/
def recvRun (r : Receiver) (es : List RecvEvent) : Receiver := es.foldl recvStep r

end Verif.Sock
