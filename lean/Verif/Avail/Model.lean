/-
Model of the availability of OCPP 2.x components: individual and effective operational status of station,
EVSEs and connectors, their persistence and callbacks; the connector status reported to the CSMS;
ChangeAvailability requests that wait for transactions; the blocking of connectors around a firmware
update.

Files modelled:
  lib/ocpp/v2/component_state_manager.cpp (all but the persisted-status getters)
  lib/ocpp/v2/connector.cpp l.44-92
  lib/ocpp/v2/functional_blocks/availability.cpp l.64-165, l.183-228
  lib/ocpp/v2/functional_blocks/firmware_update.cpp l.81-101, l.158-212
  lib/ocpp/v2/functional_blocks/transaction.cpp l.137, l.192-193 (end of a transaction)
  lib/ocpp/v2/evse_manager.cpp l.32-118, lib/ocpp/v2/evse.cpp l.322-337, l.669-688
  lib/ocpp/v2/database_handler.cpp l.227-270, l.629-659
  lib/ocpp/v2/charge_point.cpp l.425-435 (callback of the state manager), l.1096-1106 (reconnect)

Simplifications, stated once:
  * The database accepts every write. (A refused write of the station's or a connector's status is only
    logged; a refused write of an EVSE's status throws, l.193-205.)
  * Operations do not overlap in time.
  * The callbacks for station and EVSE are registered (they are optional in the code), and callbacks do
    not call back into the library.
  * The variable AvailabilityState of the device model, which is written beside each notification, is left
    out.
-/
set_option linter.constructorNameAsVariable false

namespace Verif.Avail

/-- `ConnectorStatusEnum`. -/
inductive Status where
  | available | occupied | reserved | unavailable | faulted
deriving DecidableEq, Repr

/-- The boolean members of `FullConnectorStatus` (include/ocpp/v2/component_state_manager.hpp l.45-62). -/
structure Flags where
  faulted : Bool
  reserved : Bool
  occupied : Bool
  unavailable : Bool
deriving DecidableEq, Repr

/-- `FullConnectorStatus::to_connector_status` (component_state_manager.cpp l.222-237). -/
def toStatus (f : Flags) : Status :=
  if f.faulted then .faulted
  else if f.unavailable then .unavailable
  else if f.occupied then .occupied
  else if f.reserved then .reserved
  else .available

/-- `ChangeAvailabilityRequest`: EVSE and connector are whatever integers the CSMS sends; `op` is true for
Operative. -/
structure Req where
  evse : Option (Int × Option Int)
  op : Bool
deriving DecidableEq, Repr

/-- `AvailabilityChange` (include/ocpp/v2/functional_blocks/availability.hpp l.31-34). -/
structure Sched where
  req : Req
  persist : Bool
deriving DecidableEq, Repr

/-- `ChangeAvailabilityStatusEnum`. -/
inductive Answer where
  | accepted | rejected | scheduled
deriving DecidableEq, Repr

/-- What can be seen from outside: calls of the callbacks for changed effective status, StatusNotification
requests, answers to ChangeAvailability, calls of `all_connectors_unavailable_callback`, exceptions. -/
inductive Out where
  | csChanged (op : Bool)
  | evseChanged (evse : Nat) (op : Bool)
  | connChanged (evse connector : Nat) (op : Bool)
  | status (evse connector : Nat) (st : Status)
  | answer (a : Answer)
  | allUnavailable
  | threw
deriving DecidableEq, Repr

/-- State of the station. `conns` gives the number of connectors of EVSE 1, 2, ...; `cs`, `evse`, `conn` are
the individual operational statuses (true: Operative), `lastCs`, `lastEvse`, `lastConn` the effective ones
last handed to the callbacks, `flags` the state of the connectors, `lastReported` the status last reported,
`db` the table AVAILABILITY (EVSE 0: station, connector 0: EVSE), `online` whether the callback of the state
manager sends (connected and registered, charge_point.cpp l.429-430), `tx` the connector of the running
transaction of each EVSE, `sched` the map `scheduled_change_availability_requests`. -/
structure State where
  conns : List Nat
  cs : Bool
  evse : Nat → Bool
  conn : Nat → Nat → Bool
  lastCs : Bool
  lastEvse : Nat → Bool
  lastConn : Nat → Nat → Bool
  flags : Nat → Nat → Flags
  lastReported : Nat → Nat → Status
  db : Nat → Nat → Option Bool
  online : Bool
  tx : Nat → Option Nat
  sched : Nat → Option Sched
  out : List Out

def emit (s : State) (o : Out) : State := { s with out := s.out ++ [o] }

/-- Number of connectors of an EVSE. -/
def numConns (conns : List Nat) (e : Nat) : Nat := conns.getD (e - 1) 0

/-- The EVSE ids 1, 2, ... (evse_manager.cpp l.11-23). -/
def evseIds (conns : List Nat) : List Nat := (List.range conns.length).map (· + 1)

/-- The connector ids of an EVSE. -/
def connIds (conns : List Nat) (e : Nat) : List Nat := (List.range (numConns conns e)).map (· + 1)

/-- `get_evse_effective_operational_status` (component_state_manager.cpp l.239-245); the effective status of
the station is its individual one. -/
def effEvse (s : State) (e : Nat) : Bool := if !s.cs then false else s.evse e

/-- `get_connector_effective_operational_status` (component_state_manager.cpp l.255-261). -/
def effConn (s : State) (e c : Nat) : Bool := if !effEvse s e then false else s.conn e c

/-- Function update, for the vectors of statuses. -/
def upd (f : Nat → Bool) (e : Nat) (b : Bool) : Nat → Bool := fun i => if i = e then b else f i

def upd2 {α : Type} (f : Nat → Nat → α) (e c : Nat) (b : α) : Nat → Nat → α :=
  fun i j => if i = e ∧ j = c then b else f i j

/-- `trigger_callbacks_connector` (component_state_manager.cpp l.149-163). -/
def trigConn (only : Bool) (e : Nat) (s : State) (c : Nat) : State :=
  let cur := effConn s e c
  if !only || s.lastConn e c != cur then
    { emit s (.connChanged e c cur) with lastConn := upd2 s.lastConn e c cur }
  else s

/-- `trigger_callbacks_evse` (component_state_manager.cpp l.135-147). -/
def trigEvse (only : Bool) (s : State) (e : Nat) : State :=
  let cur := effEvse s e
  if !only || s.lastEvse e != cur then
    (connIds s.conns e).foldl (trigConn only e)
      { emit s (.evseChanged e cur) with lastEvse := upd s.lastEvse e cur }
  else s

/-- `trigger_callbacks_cs` (component_state_manager.cpp l.122-133). -/
def trigCs (only : Bool) (s : State) : State :=
  let cur := s.cs
  if !only || s.lastCs != cur then
    (evseIds s.conns).foldl (trigEvse only) { emit s (.csChanged cur) with lastCs := cur }
  else s

/-- `insert_availability` with replace (database_handler.cpp l.227-250), if the status is to persist. -/
def store (s : State) (e c : Nat) (op persist : Bool) : State :=
  if persist then { s with db := upd2 s.db e c (some op) } else s

/-- `set_cs_individual_operational_status` (component_state_manager.cpp l.192-202). -/
def setCs (op persist : Bool) (s : State) : State :=
  trigCs true (store { s with cs := op } 0 0 op persist)

/-- `set_evse_individual_operational_status` (l.203-215), reached through `Evse::set_evse_operative_status`
(evse.cpp l.669-671). -/
def setEvse (e : Nat) (op persist : Bool) (s : State) : State :=
  trigEvse true (store { s with evse := upd s.evse e op } e 0 op persist) e

/-- `set_connector_individual_operational_status` (l.216-229), reached through
`Evse::set_connector_operative_status` (evse.cpp l.673-675). -/
def setConn (e c : Nat) (op persist : Bool) (s : State) : State :=
  trigConn true e (store { s with conn := upd2 s.conn e c op } e c op persist) c

/-- `restore_connector_operative_status` (connector.cpp l.78-92): back to the persisted status. A missing
row makes the getter throw, which is only logged. -/
def restoreConn (e c : Nat) (s : State) : State :=
  match s.db e c with
  | some op => setConn e c op false s
  | none => s

/-- `send_status_notification_single_connector_internal` (component_state_manager.cpp l.309-323). -/
def report (only : Bool) (e c : Nat) (s : State) : State :=
  let st := toStatus (s.flags e c)
  if !only || s.lastReported e c != st then
    if s.online then { emit s (.status e c st) with lastReported := upd2 s.lastReported e c st } else s
  else s

/-- All connectors, EVSE by EVSE. -/
def allConns (conns : List Nat) : List (Nat × Nat) :=
  (evseIds conns).flatMap (fun e => (connIds conns e).map (fun c => (e, c)))

/-- `send_status_notification_all_connectors` and `..._changed_connectors` (l.324-337). -/
def reportAll (only : Bool) (s : State) : State :=
  (allConns s.conns).foldl (fun s p => report only p.1 p.2 s) s

/-- `ConnectorEvent`. -/
inductive Event where
  | plugIn | plugOut | reserve | reservationCleared | error | errorCleared | unavailable | unavailableCleared
deriving DecidableEq, Repr

/-- The setters of component_state_manager.cpp l.277-303. -/
def evFlags (ev : Event) (f : Flags) : Flags :=
  match ev with
  | .plugIn => { f with occupied := true }
  | .plugOut => { f with occupied := false }
  | .reserve => { f with reserved := true }
  | .reservationCleared => { f with reserved := false }
  | .error => { f with faulted := true }
  | .errorCleared => { f with faulted := false }
  | .unavailable => { f with unavailable := true }
  | .unavailableCleared => { f with unavailable := false }

/-- `Connector::submit_event` (connector.cpp l.44-71). A plug event of a reserved connector is not
reported. -/
def event (e c : Nat) (ev : Event) (s : State) : State :=
  let f' := evFlags ev (s.flags e c)
  let s' := { s with flags := upd2 s.flags e c f' }
  if (ev = .plugIn ∨ ev = .plugOut) ∧ f'.reserved = true then s' else report true e c s'

/-- `has_active_transaction` (evse.cpp l.322-324). -/
def active (s : State) (e : Nat) : Bool := (s.tx e).isSome

/-- `any_transaction_active` (evse_manager.cpp l.92-102) for an existing EVSE or the station. -/
def anyActive (s : State) (evse : Option Nat) : Bool :=
  match evse with
  | none => (evseIds s.conns).any (active s)
  | some e => active s e

/-- The target of a request: station, EVSE or connector. -/
inductive Target where
  | station
  | evse (e : Nat)
  | conn (e c : Nat)
deriving DecidableEq, Repr

/-- How the request is understood: `is_valid_evse` (evse_manager.cpp l.104-108) accepts EVSE 0 and
connectors below 1; `any_transaction_active` then throws for EVSE 0, `is_already_in_state` for the
connector (component_state_manager.cpp l.87-92). `none`: rejected, `some none`: throws. -/
def target (conns : List Nat) (r : Req) : Option (Option Target) :=
  match r.evse with
  | none => some (some .station)
  | some (e, c) =>
    if e < 0 ∨ (conns.length : Int) < e then none
    else match c with
      | none => if e = 0 then some none else some (some (.evse e.toNat))
      | some c =>
        if e = 0 then some none
        else if (numConns conns e.toNat : Int) < c then none
        else if c ≤ 0 then some none
        else some (some (.conn e.toNat c.toNat))

/-- The EVSE whose transaction matters; `none` for the station. -/
def evseOf : Target → Option Nat
  | .station => none
  | .evse e => some e
  | .conn e _ => some e

/-- The key in the map of scheduled requests: 0 for the station. -/
def keyOf (t : Target) : Nat := (evseOf t).getD 0

/-- `is_already_in_state` (availability.cpp l.183-200). -/
def inState (s : State) (t : Target) (op : Bool) : Bool :=
  match t with
  | .station => s.cs == op
  | .evse e => s.evse e == op
  | .conn e c => s.conn e c == op

/-- `execute_change_availability_request` (availability.cpp l.202-213). -/
def execute (t : Target) (op persist : Bool) (s : State) : State :=
  match t with
  | .station => setCs op persist s
  | .evse e => setEvse e op persist s
  | .conn e c => setConn e c op persist s

/-- Entry of the map replaced or erased. -/
def setSched (s : State) (k : Nat) (v : Option Sched) : State :=
  { s with sched := fun i => if i = k then v else s.sched i }

/-- Is the request accepted (availability.cpp l.121-122)? -/
def accepts (s : State) (t : Target) (op : Bool) : Bool :=
  !anyActive s (evseOf t) || inState s t op || (decide (keyOf t = 0) && op)

/-- The temporary blocking of idle components for a scheduled request (availability.cpp l.143-164). -/
def blockIdle (t : Target) (s : State) : State :=
  match evseOf t with
  | none => (evseIds s.conns).foldl (fun s' e => if active s' e then s' else setEvse e false false s') s
  | some e =>
    (connIds s.conns e).foldl
      (fun s' c => if s'.tx e = some c then s' else setConn e c false false s') s

/-- `handle_change_availability_req` (availability.cpp l.98-166). -/
def change (r : Req) (s : State) : State :=
  match target s.conns r with
  | none => emit s (.answer .rejected)
  | some none => emit s .threw
  | some (some t) =>
    if accepts s t r.op then
      let s1 := emit (setSched s (keyOf t) none) (.answer .accepted)
      if anyActive s (evseOf t) then s1 else execute t r.op true s1
    else
      let s1 := emit (setSched s (keyOf t) (some { req := r, persist := true })) (.answer .scheduled)
      blockIdle t s1

/-- `are_all_connectors_effectively_inoperative` (evse_manager.cpp l.62-74). -/
def allInoperative (s : State) : Bool := (allConns s.conns).all (fun p => !effConn s p.1 p.2)

/-- The call of `all_connectors_unavailable_callback` after a check. -/
def notifyAll (s : State) : State := if allInoperative s then emit s .allUnavailable else s

/-- `handle_scheduled_change_availability_requests` (availability.cpp l.64-82). Requests in the map have
passed the checks, so that their target exists. -/
def runScheduled (k : Nat) (s : State) : State :=
  match s.sched k with
  | none => s
  | some sc =>
    match target s.conns sc.req with
    | some (some t) =>
      if anyActive s (evseOf t) then s
      else notifyAll (setSched (execute t sc.req.op sc.persist s) k none)
    | _ => emit s .threw

/-- `set_evse_connectors_unavailable` (evse_manager.cpp l.112-118). -/
def blockEvse (s : State) (e : Nat) : State :=
  (connIds s.conns e).foldl (fun s c => setConn e c false false s) s

/-- The request stored for an EVSE with a transaction (firmware_update.cpp l.161-162, l.186-189). -/
def firmwareSched (e : Nat) : Sched := { req := { evse := some ((e : Int), none), op := false }, persist := false }

/-- `change_all_connectors_to_unavailable_for_firmware_update` (firmware_update.cpp l.158-194). -/
def firmwarePrepare (s : State) : State :=
  if !anyActive s none then notifyAll ((evseIds s.conns).foldl blockEvse s)
  else (evseIds s.conns).foldl
    (fun s e => if !active s e then blockEvse s e else setSched s e (some (firmwareSched e))) s

/-- `restore_all_connector_states` (firmware_update.cpp l.196-205), when the update is over. -/
def firmwareRestore (s : State) : State :=
  (allConns s.conns).foldl (fun s p => restoreConn p.1 p.2 s) s

/-- A fresh process: `read_all_states_from_database_or_set_defaults` and `initialize_reported_state_cache`
(component_state_manager.cpp l.11-60). `resumed` are the transactions taken from the database. -/
def boot (conns : List Nat) (resumed : Nat → Option Nat) (s : State) : State :=
  let db := fun e c =>
    if (e, c) = (0, 0) ∨ (c = 0 ∧ e ∈ evseIds conns) ∨ (e, c) ∈ allConns conns then some ((s.db e c).getD true)
    else s.db e c
  let cs := (s.db 0 0).getD true
  let evse := fun e => (s.db e 0).getD true
  let conn := fun e c => (s.db e c).getD true
  let free : Flags := ⟨false, false, false, false⟩
  { conns := conns, cs := cs, evse := evse, conn := conn,
    lastCs := cs, lastEvse := fun e => if !cs then false else evse e,
    lastConn := fun e c => if !(if !cs then false else evse e) then false else conn e c,
    flags := fun _ _ => free, lastReported := fun _ _ => toStatus free,
    db := db, online := false, tx := resumed, sched := fun _ => none, out := s.out }

/-- The EVSE (and connector) exists; otherwise the interface functions throw. -/
def exists_ (conns : List Nat) (e c : Nat) : Bool :=
  decide (1 ≤ e ∧ e ≤ conns.length ∧ 1 ≤ c ∧ c ≤ numConns conns e)

/-- Operations of the application and of the CSMS. -/
inductive Op where
  /-- A ChangeAvailability request. -/
  | change (r : Req)
  /-- A transaction starts at connector `c` of EVSE `e`. -/
  | txStart (e c : Nat)
  /-- The transaction of EVSE `e` ends (`on_transaction_finished`). -/
  | txEnd (e : Nat)
  /-- The application reports an event of a connector. -/
  | event (e c : Nat) (ev : Event)
  /-- A firmware update is about to be installed. -/
  | firmwarePrepare
  /-- A firmware update is over. -/
  | firmwareRestore
  /-- A reset is pending: the connectors of EVSE `e` are blocked. -/
  | block (e : Nat)
  /-- The connection to the CSMS is lost. -/
  | offline
  /-- Registered by BootNotification: everything is reported. -/
  | accepted
  /-- Connected again; after a long time offline everything is reported, else what changed. -/
  | reconnect (long : Bool)
  /-- TriggerMessage(StatusNotification). -/
  | triggerStatus (e c : Nat)
  /-- `ChargePoint::start`: all callbacks are called (charge_point.cpp l.125). -/
  | start
  /-- The process ends and starts again. -/
  | boot (conns : List Nat) (resumed : Nat → Option Nat)

/-- One operation. -/
def step (s : State) : Op → State
  | .change r => change r s
  | .txStart e c => if exists_ s.conns e c then { s with tx := fun i => if i = e then some c else s.tx i } else emit s .threw
  | .txEnd e =>
    if !decide (e ∈ evseIds s.conns) then emit s .threw
    else if active s e then
      runScheduled 0 (runScheduled e { s with tx := fun i => if i = e then none else s.tx i })
    else s
  | .event e c ev => if exists_ s.conns e c then event e c ev s else emit s .threw
  | .firmwarePrepare => firmwarePrepare s
  | .firmwareRestore => firmwareRestore s
  | .block e => if decide (e ∈ evseIds s.conns) then blockEvse s e else emit s .threw
  | .offline => { s with online := false }
  | .accepted => reportAll false { s with online := true }
  | .reconnect long => reportAll (!long) { s with online := true }
  | .triggerStatus e c => if exists_ s.conns e c then report false e c s else emit s .threw
  | .start => trigCs false s
  | .boot conns resumed => boot conns resumed s

def run (s : State) (h : List Op) : State := h.foldl step s

/-- A station that was never used. -/
def clean (conns : List Nat) : State :=
  boot conns (fun _ => none)
    { conns := conns, cs := true, evse := fun _ => true, conn := fun _ _ => true, lastCs := true,
      lastEvse := fun _ => true, lastConn := fun _ _ => true, flags := fun _ _ => ⟨false, false, false, false⟩,
      lastReported := fun _ _ => .available, db := fun _ _ => none, online := false, tx := fun _ => none,
      sched := fun _ => none, out := [] }

end Verif.Avail
