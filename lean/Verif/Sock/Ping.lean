/-!
# Pings and pongs

The timer that sends WebSocket pings and closes the connection if no pong arrives
(`lib/ocpp/common/websocket/websocket_base.cpp` l.169-229), with the events that start and stop it
(`lib/ocpp/common/websocket/websocket_libwebsockets.cpp` l.1380-1387, 1525-1540, 1555-1560, 1607-1611).

Time is counted in ticks of the timer (one second).  `ping` waits up to one second for the message to be written, which
delays the next tick; that is not modelled.
-/

namespace Verif.Sock

/-- The fields of `WebsocketBase` that the timer uses (`websocket_base.hpp` l.29-31, 57-59): settings, whether the
connection is up, whether the timer runs, `ping_cleared`, `ping_elapsed_s`, `pong_elapsed_s`.  `payload` says that the
payload of the pings is not empty. -/
structure PingState where
  interval : Int
  timeout : Int
  payload : Bool := true
  connected : Bool := false
  timer : Bool := false
  cleared : Bool := true
  pingElapsed : Int := 0
  pongElapsed : Int := 0
deriving DecidableEq, Repr

/-- What happens: the connection is established, it is lost or closed on request, a second passes, a pong arrives, or
`set_websocket_ping_interval` is called. -/
inductive PingEvent
  | connect
  | lost
  | tick
  | pong
  | set (interval timeout : Int)
deriving DecidableEq, Repr

/-- What the peer or the application sees: a ping is written, or the connection is closed because of a missing pong. -/
inductive PingOut
  | ping
  | timeout
deriving DecidableEq, Repr

/-- The tick while a pong is missing (`websocket_base.cpp` l.182-199): `on_pong_timeout` closes the connection. -/
def tickWaiting (s : PingState) : PingState × List PingOut :=
  if s.pongElapsed + 1 > s.timeout then
    ({ s with
        connected := false
        timer := false
        cleared := true
        pingElapsed := 0
        pongElapsed := 0 }, [.timeout])
  else ({ s with pongElapsed := s.pongElapsed + 1 }, [])

/-- The tick while no pong is missing (l.200-211).  The ping is written if there is a connection
(`websocket_libwebsockets.cpp` l.1128-1132) and its payload is not empty (l.1651: a message of which already `0 ≥ 0` bytes
are written counts as sent). -/
def tickIdle (s : PingState) : PingState × List PingOut :=
  if s.pingElapsed + 1 > s.interval then
    ({ s with
        cleared := false
        pingElapsed := 0
        pongElapsed := 0 }, if s.connected && s.payload then [.ping] else [])
  else ({ s with pingElapsed := s.pingElapsed + 1 }, [])

/-- One event (`on_conn_connected` l.1532, `on_conn_close` l.1557 and `on_conn_fail` l.1609, the pong l.1382,
`set_websocket_ping_interval` l.169-219). -/
def pingStep (s : PingState) : PingEvent → PingState × List PingOut
  | .connect =>
    ({ s with
        connected := true
        timer := decide (s.interval > 0) }, [])
  | .lost =>
    ({ s with
        connected := false
        timer := false }, [])
  | .pong => (if s.connected then { s with cleared := true } else s, [])
  | .set i t =>
    ({ s with
        interval := i
        timeout := t
        timer := decide (i > 0) }, [])
  | .tick => if !s.timer then (s, []) else if s.cleared then tickIdle s else tickWaiting s

/-- The state after a list of events. -/
def pingRun (s : PingState) (es : List PingEvent) : PingState :=
  es.foldl (fun s e => (pingStep s e).1) s

/-- What is seen of a list of events. -/
def pingOut (s : PingState) : List PingEvent → List PingOut
  | [] => []
  | e :: es => (pingStep s e).2 ++ pingOut (pingStep s e).1 es

end Verif.Sock
