/-!
# Keeping the connection (OCPP 1.6)

When the OCPP 1.6 charge point starts connecting, stops, and starts again: `start`, `connect_websocket`,
`disconnect_websocket`, `switchSecurityProfile`, the callbacks of `init_websocket`
(`lib/ocpp/v16/charge_point_impl.cpp` l.292-362, 426-438, 1160, 1310-1312, 1876-1932, 2032-2053, 2899-2903), and
`start_connecting`, `close`, `reconnect` and `disconnect` of the WebSocket client
(`lib/ocpp/common/websocket/websocket_libwebsockets.cpp` l.945-1075, `websocket_base.cpp` l.83-106).

The loop of the client (`Verif.Sock.Loop`) is reduced to what the charge point can tell apart.  Simplified: the callbacks
that an event causes are called before the next event.  Not modelled here: which security profile is used
(`Verif.Conf16`).
-/

namespace Verif.Sock

/-- The thread of the client: not running, trying to connect (or waiting to), connected. -/
inductive LoopPhase
  | off
  | trying
  | up
deriving DecidableEq, Repr

/-- The state.  `callback` is `switch_security_profile_callback`: absent, or a switch with the number of attempts limited
(`some true`) or not.  `limited` says that the options of the client have a limit.  `switchTimer` is `websocket_timer` with
the limit of the options that it will set, `reconnectTimer` is `reconnect_timer_tpm`, `shuttingDown` is the flag of
`WebsocketBase`. -/
structure Keeper where
  phase : LoopPhase := .off
  callback : Option Bool := none
  limited : Bool := false
  switchTimer : Option Bool := none
  reconnectTimer : Bool := false
  shuttingDown : Bool := false
deriving DecidableEq, Repr

/-- What happens: calls of the application, of the network, a missing pong (`Verif.Sock.Ping`), an accepted change of the
security profile, a change after which the charge point reconnects (authorization key, certificate), and the timers. -/
inductive KeepEvent
  | connect
  | disconnect
  | established
  | lost
  | exhausted
  | pongTimeout
  | switchProfile
  | reconnect
  | switchTimer
  | reconnectTimer
deriving DecidableEq, Repr

/-- `switchSecurityProfile` (l.2032-2053), called by the callback with or without limit: the next callback switches back,
without limit. -/
def doSwitch (k : Keeper) (limit : Bool) : Keeper :=
  { k with
    callback := some false
    switchTimer := some limit }

/-- The callback for the end of the connection attempts (l.340-344). -/
def onStopped (k : Keeper) : Keeper :=
  match k.callback with
  | none => k
  | some l => doSwitch k l

/-- `close_internal` (`websocket_libwebsockets.cpp` l.1011-1035): the thread ends and reports that. -/
def closeLoop (k : Keeper) : Keeper :=
  if k.phase = .off then k
  else onStopped { k with phase := .off, reconnectTimer := false }

/-- `start_connecting` (l.945-1002): a thread that still runs is ended first, which is reported after the new one has been
started. -/
def startLoop (k : Keeper) : Keeper :=
  let k' : Keeper :=
    { k with
      phase := .trying
      reconnectTimer := false
      shuttingDown := false }
  if k.phase = .off then k' else onStopped k'

/-- One event. -/
def keepStep (k : Keeper) : KeepEvent → Keeper
  -- `connect_websocket` l.426-431; `start` l.1160
  | .connect => if k.phase = .up then k else startLoop k
  -- `disconnect_websocket` l.433-438
  | .disconnect => if k.phase = .up then closeLoop { k with shuttingDown := true } else k
  -- `on_conn_connected` (l.1525-1550) and the callback l.297-317, 1311
  | .established =>
    if k.phase = .trying then
      { k with
        phase := .up
        reconnectTimer := false
        callback := none
        limited := false }
    else k
  | .lost => if k.phase = .up then { k with phase := .trying } else k
  -- the limit is reached (l.829-835)
  | .exhausted => if k.phase = .trying ∧ k.limited then onStopped { k with phase := .off } else k
  -- `on_pong_timeout` (`websocket_base.cpp` l.225-229)
  | .pongTimeout => if k.phase = .up then closeLoop k else k
  -- an accepted change of `SecurityProfile` l.1928-1932
  | .switchProfile =>
    closeLoop
      { k with
        callback := some true
        shuttingDown := true }
  -- `reconnect` (`websocket_libwebsockets.cpp` l.1037-1062)
  | .reconnect => if k.shuttingDown then k else { closeLoop k with reconnectTimer := true }
  -- l.2044-2052
  | .switchTimer =>
    match k.switchTimer with
    | none => k
    | some l =>
      startLoop
        { k with
          switchTimer := none
          limited := l }
  -- l.1052-1060
  | .reconnectTimer =>
    if k.reconnectTimer then startLoop (closeLoop { k with reconnectTimer := false }) else k

/-- The state after a list of events. -/
def keepRun (k : Keeper) (es : List KeepEvent) : Keeper := es.foldl keepStep k

end Verif.Sock
