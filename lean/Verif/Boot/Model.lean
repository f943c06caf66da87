import Verif.MessageQueue.Model
/-!
Registration of the station: BootNotification, its answers and repetitions, and heartbeats.
OCPP 1.6: lib/ocpp/v16/charge_point_impl.cpp; OCPP 2.x: lib/ocpp/v2/functional_blocks/provisioning.cpp, availability.cpp, lib/ocpp/v2/charge_point.cpp.
The message queue is the model of Verif.MessageQueue; `cfg.v2` tells which protocol is used.

Simplifications: the heartbeat and boot timers are times, not threads; what else an answer causes (time synchronisation, StatusNotifications, certificate timers) is
part of the operations of the queue that may happen at any time.
-/

namespace Verif.Boot

/-- `RegistrationStatus`, `RegistrationStatusEnum`. -/
inductive Reg
  | accepted
  | pending
  | rejected
  deriving DecidableEq, Repr

/-- `ChargePointConnectionState`, include/ocpp/v16/types.hpp. -/
inductive Conn
  | disconnected
  | connected
  | rejected
  | pending
  | booted
  deriving DecidableEq, Repr

/-- The station. -/
structure St where
  mq : MQ.St
  status : Reg                        -- `registration_status`
  conn : Conn := .disconnected        -- `connection_state` (1.6 only)
  handling : Option (Reg × Int) := none -- an answer to BootNotification that was received, but not yet handled
  timer : Option Int := none          -- when `boot_notification_timer` expires
  hbKey : Int                         -- the configuration key or variable HeartbeatInterval
  hb : Option Int := none             -- the period of the running heartbeat timer

/-- An operation of the queue. -/
def St.q (s : St) (op : MQ.BaseOp) : St := { s with mq := MQ.step s.mq (.run op) }

/-- `boot_notification`, charge_point_impl.cpp l.454-468; `boot_notification_req`, provisioning.cpp l.91-110. -/
def St.boot (s : St) (triggered : Bool) : St := s.q (.dispatch .boot triggered)

/-- The first value of `registration_status`: charge_point_impl.cpp l.49, charge_point.cpp l.59. -/
def first (v2 : Bool) : Reg := if v2 then .rejected else .pending

/-- The process starts: constructor and `start`, charge_point_impl.cpp l.1139-1189, charge_point.cpp l.119-132.  The configuration keeps HeartbeatInterval. -/
def powerUp (q : MQ.St) (cfg : MQ.Cfg) (ign : Bool) (hbKey : Int) : St :=
  { mq := MQ.step q (.run (.restart cfg ign)), status := first cfg.v2, hbKey := hbKey : St }.boot false

/-- The waiting time before the next BootNotification: charge_point_impl.cpp l.35, l.1675-1678; provisioning.cpp l.31, l.210-213. -/
def wait (v2 : Bool) (interval : Int) : Int := if interval > 0 then interval else if v2 then 30 else 60

/-- `handleBootNotificationResponse`, charge_point_impl.cpp l.1664-1733. -/
def handle16 (s : St) (st : Reg) (interval : Int) : St :=
  let s := { s with status := st, hbKey := if interval > 0 then interval else s.hbKey }.q (.regStatus (decide (st = Reg.accepted)))
  match st with
  | .accepted => { s with conn := .booted, timer := none, hb := some s.hbKey }
  | .pending => { s with conn := .pending, timer := some (s.mq.now + wait false interval) }
  | .rejected => { s with conn := .rejected, timer := some (s.mq.now + wait false interval) }

/-- `handle_boot_notification_response`, provisioning.cpp l.172-225. -/
def handle2 (s : St) (st : Reg) (interval : Int) : St :=
  let s := { s with status := st }.q (.regStatus (decide (st = Reg.accepted)))
  if st = .accepted then
    if interval > 0 then { s with timer := none, hb := some interval, hbKey := interval } else { s with timer := none }
  else { s with timer := some (s.mq.now + wait true interval) }

/-- Whether an answer to BootNotification is looked at (1.6): `message_callback`, charge_point_impl.cpp l.1387-1437, and `handle_message`, l.1617 (nothing happens when
Booted). -/
def listens (conn : Conn) (status : Reg) : Bool :=
  match conn with
  | .disconnected => false
  | .connected => true
  | .rejected => status == .rejected
  | .pending => status == .pending
  | .booted => false

/-- The answer is handled: `message_callback` of either version (2.x: charge_point.cpp l.953-996, an answer to BootNotification is always handled). -/
def handle (s : St) : St :=
  match s.handling with
  | none => s
  | some (st, interval) =>
    let s := { s with handling := none }
    if s.mq.cfg.v2 then handle2 s st interval
    else if listens s.conn s.status then handle16 s st interval else s

/-- Whether the outstanding call is the BootNotification with this id. -/
def awaits (q : MQ.St) (uid : Nat) : Bool :=
  match q.inFlight with
  | some m => m.uid == uid && m.kind == .boot
  | none => false

/-- A CALLRESULT arrives: `receive`, message_queue.hpp l.747-778.  There is one thread for received messages: nothing is received while an answer is handled. -/
def recv (s : St) (uid : Nat) (st : Reg) (interval : Int) : St :=
  if s.handling.isSome then s
  else if awaits s.mq uid then { s with handling := some (st, interval) }.q (.recvResult uid) else s.q (.recvResult uid)

/-- `boot_notification_timer` expires. -/
def timerFires (s : St) : St :=
  match s.timer with
  | some t => if t ≤ s.mq.now then { s with timer := none }.boot false else s
  | none => s

/-- `connected_callback`, charge_point_impl.cpp l.1310-1334; it runs after the queue was resumed (l.301-302), in another thread than the received messages. -/
def connected (s : St) : St := if s.conn = .disconnected then { s with conn := .connected } else s

/-- `stop` and `restart` of OCPP 1.6, charge_point_impl.cpp l.1193-1208, l.1258-1307: timers are stopped, the queue is made anew, `registration_status` and
`connection_state` are kept. -/
def restart16 (s : St) (cfg : MQ.Cfg) (ign : Bool) : St :=
  { s with
    mq := { MQ.step s.mq (.run (.restart cfg ign)) with reg := s.status == .accepted }
    timer := none
    hb := none
    handling := none : St }.boot false

/-- The configuration key HeartbeatInterval is set: charge_point_impl.cpp l.1866-1868; provisioning.cpp l.554-564. -/
def setHeartbeat (s : St) (n : Int) : St :=
  if s.mq.cfg.v2 && s.status != .accepted then { s with hbKey := n } else { s with hbKey := n, hb := some n }

/-- What happens.  `queue op` stands for everything else that is done with the queue (see `plain`). -/
inductive Op
  | queue (op : MQ.BaseOp)
  | recv (uid : Nat) (st : Reg) (interval : Int)
  | handle
  | timer
  | trigger
  | resume (delayed : Bool)
  | connected
  | disconnected
  | tick (d : Nat)
  | setHeartbeat (n : Int)
  | powerCycle (cfg : MQ.Cfg) (ign : Bool)
  | restart16 (cfg : MQ.Cfg) (ign : Bool)

/-- Operations of the queue that have no counterpart in `Op`. -/
def plain : MQ.BaseOp → Bool
  | .recvResult _ | .regStatus _ | .restart _ _ | .stop | .pause | .resume _ | .tick _ => false
  | _ => true

/-- One step.  If the process is gone (`fault`), only starting it again does something; a station keeps its protocol. -/
def step (s : St) (op : Op) : St :=
  match op with
  | .powerCycle cfg ign => if cfg.v2 = s.mq.cfg.v2 then powerUp s.mq cfg ign s.hbKey else s
  | op =>
    if s.mq.fault.isSome then s
    else match op with
    | .queue o => if plain o then s.q o else s
    | .recv u st i => recv s u st i
    | .handle => handle s
    | .timer => timerFires s
    | .trigger => s.boot true
    | .resume d => s.q (.resume d)
    | .connected => connected s
    | .disconnected => s.q .pause
    | .tick d => s.q (.tick d)
    | .setHeartbeat n => setHeartbeat s n
    | .powerCycle _ _ => s
    | .restart16 cfg ign => if s.mq.cfg.v2 || cfg.v2 then s else restart16 s cfg ign

/-- The first start on an empty database. -/
def start (cfg : MQ.Cfg) (now hbKey : Int) : St := powerUp (MQ.init cfg now) cfg false hbKey

/-- A history. -/
def run (s : St) (ops : List Op) : St := ops.foldl step s

/-! ## Requests of the CSMS (1.6) -/

/-- A received message as far as `message_callback` distinguishes it. -/
inductive In
  | bootResponse
  | remoteStart
  | remoteStop
  | call        -- any other CALL
  | response    -- any other CALLRESULT or CALLERROR
  deriving DecidableEq, Repr

/-- What is done with it. -/
inductive Reaction
  | nothing      -- dropped; the queue goes on waiting for the reply to a CALL
  | noReply      -- dropped, `reset_next_message_to_send`
  | refuse       -- answered with Rejected
  | error        -- a CALLERROR SecurityError with the id of the message is sent
  | handled
  deriving DecidableEq, Repr

/-- `message_callback`, charge_point_impl.cpp l.1372-1437, for supported messages. -/
def reaction16 (conn : Conn) (status : Reg) (m : In) : Reaction :=
  let silent : Reaction := match m with
    | .bootResponse => .handled
    | .response => .nothing
    | _ => .noReply
  match conn with
  | .disconnected => .nothing
  | .connected => silent
  | .rejected => if status = .rejected then silent else .nothing
  | .pending => if status = .pending then (match m with
      | .remoteStart | .remoteStop => .refuse
      | _ => .handled) else .nothing
  | .booted => if m = .bootResponse then .nothing else .handled

/-! ## Requests of the CSMS (2.x) -/

/-- A received message as far as `message_callback` distinguishes it. -/
inductive In2
  | bootResponse
  | triggerBoot          -- TriggerMessage for BootNotification
  | trigger              -- other TriggerMessage
  | inspect              -- GetVariables, SetVariables, GetBaseReport, GetReport
  | notifyReportResponse
  | startStop            -- RequestStartTransaction, RequestStopTransaction
  | call                 -- any other CALL
  | response             -- any other CALLRESULT
  | callError            -- CALLERROR
  deriving DecidableEq, Repr

/-- `message_callback`, charge_point.cpp l.953-1016.  The type of a CALLERROR is none of those named there: it stays InternalError (message_queue.hpp l.56, l.767-772). -/
def reaction2 (status : Reg) (m : In2) : Reaction :=
  match status with
  | .accepted => .handled
  | .pending => match m with
    | .bootResponse | .inspect | .notifyReportResponse | .trigger | .triggerBoot => .handled
    | .startStop => .refuse
    | .call | .response | .callError => .error
  | .rejected => match m with
    | .bootResponse | .triggerBoot => .handled
    | _ => .error

end Verif.Boot
