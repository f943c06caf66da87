/-!
# The connection loop of the WebSocket client

`thread_websocket_client_loop` with the callbacks that it runs (`lib/ocpp/common/websocket/websocket_libwebsockets.cpp`
l.701-860, 1300-1360, 1525-1612) and the waiting times of `get_reconnect_interval`
(`lib/ocpp/common/websocket/websocket_base.cpp` l.139-159).

One step is one pass of the outer loop: one attempt to connect, the life of the connection if it is established, and
the wait before the next pass.  What happens in it (is the connection established, does somebody call `close`) is the
input.  The callbacks are put into a queue and called in order by one thread; they are the output.  Not modelled:
`lws_service` failing while the connection is up (l.800, `n < 0`), and the 32-bit limit of the number of attempts.
-/

namespace Verif.Sock

/-- The connection options that the loop reads (`websocket_base.hpp` l.16-45). -/
structure LoopOptions where
  maxAttempts : Int
  repeatTimes : Int
  waitMinimum : Int
  randomRange : Int
deriving DecidableEq, Repr

/-- When `close` interrupts the pass: not at all, during the attempt or the connection, or in the wait. -/
inductive Interrupt
  | never
  | during
  | waiting
deriving DecidableEq, Repr

/-- One pass: whether the connection is established, when `close` is called, and the number drawn from
`uniform_int_distribution(0, retry_backoff_random_range_s)`. -/
structure Pass where
  established : Bool
  interrupt : Interrupt
  random : Int
deriving DecidableEq, Repr

/-- What can be observed: an attempt, the callbacks, the waiting time in milliseconds, and an overflow of `int`. -/
inductive LoopOut
  | attempt
  | connected
  | disconnected
  | stopped
  | delay (ms : Int)
  | overflow
deriving DecidableEq, Repr

/-- `connection_attempts`, `reconnect_backoff_ms` (`websocket_base.hpp` l.62-63), and whether the thread still runs. -/
structure LoopState where
  attempts : Int
  backoff : Int
  running : Bool
deriving DecidableEq, Repr

/-- After `start_connecting` (l.977); `reconnect_backoff_ms` keeps its old value. -/
def loopStart (backoff : Int) : LoopState := ⟨1, backoff, true⟩

/-- A value of type `int`; outside its range the behaviour is undefined. -/
def inInt (x : Int) : Bool := decide (-2147483648 ≤ x) && decide (x ≤ 2147483647)

/-- `get_reconnect_interval` (`websocket_base.cpp` l.139-159): the new `reconnect_backoff_ms`, `none` if an operation on
`int` overflows. -/
def reconnectInterval (o : LoopOptions) (s : LoopState) (random : Int) : Option Int :=
  if !inInt (o.repeatTimes + 1) then none
  else if s.attempts > o.repeatTimes + 1 then some s.backoff
  else if s.attempts = 1 then
    if inInt (o.waitMinimum + random) && inInt ((o.waitMinimum + random) * 1000) then
      some ((o.waitMinimum + random) * 1000)
    else none
  else if inInt (s.backoff * 2) && inInt (random * 1000) && inInt (s.backoff * 2 + random * 1000) then
    some (s.backoff * 2 + random * 1000)
  else none

/-- The end of a pass that was not interrupted (l.815-835): wait and try again, or give up. -/
def retry (o : LoopOptions) (s : LoopState) (p : Pass) : LoopState × List LoopOut :=
  if o.maxAttempts = -1 ∨ s.attempts ≤ o.maxAttempts then
    match reconnectInterval o s p.random with
    | none => (⟨s.attempts, s.backoff, false⟩, [.overflow])
    | some d =>
      if p.interrupt = .waiting then (⟨s.attempts + 1, d, false⟩, [.delay d, .stopped, .disconnected])
      else (⟨s.attempts + 1, d, true⟩, [.delay d])
  else (⟨s.attempts, s.backoff, false⟩, [.stopped, .disconnected])

/-- One pass of the loop (l.710-855).  `on_conn_connected` resets the number of attempts (l.1529); `on_conn_fail` reports
the loss of an established connection (l.1598-1606); an interrupted pass ends the thread, and `on_conn_close` (l.1574) or
the end of the function (l.859) reports that. -/
def pass (o : LoopOptions) (s : LoopState) (p : Pass) : LoopState × List LoopOut :=
  if !s.running then (s, [])
  else if p.interrupt = .during then
    (⟨if p.established then 1 else s.attempts, s.backoff, false⟩,
      .attempt :: (if p.established then [.connected] else []) ++ [.stopped, .disconnected])
  else
    let s' : LoopState := ⟨if p.established then 1 else s.attempts, s.backoff, true⟩
    let r := retry o s' p
    (r.1, .attempt :: (if p.established then [.connected, .disconnected] else []) ++ r.2)

/-- The state after a list of passes. -/
def passes (o : LoopOptions) (s : LoopState) (ps : List Pass) : LoopState :=
  ps.foldl (fun s p => (pass o s p).1) s

/-- Everything that can be observed. -/
def observed (o : LoopOptions) (s : LoopState) : List Pass → List LoopOut
  | [] => []
  | p :: ps => (pass o s p).2 ++ observed o (pass o s p).1 ps

end Verif.Sock
