import Verif.Monitor.Store
/-
Model of the monitoring of variables at run time: `lib/ocpp/v2/monitoring_updater.cpp` and
`include/ocpp/v2/monitoring_updater.hpp`, with the two listeners of `lib/ocpp/v2/device_model.cpp`.

Time is in milliseconds.  The unordered map of the updater is a list here; all theorems hold for every order.
The accesses of the timer and of the message handlers to that map are not synchronised in the code; they are
one after the other here.
-/
set_option linter.constructorNameAsVariable false

namespace Verif.Mon

open Verif.DM (Str Comp Vbl DataType Chars)

/-- `EventTriggerEnum`. -/
inductive Trigger | periodic | delta | alerting
deriving DecidableEq, Repr

/-- `EventData`. -/
structure Event where
  eventId : Nat
  time : Nat
  comp : Comp
  var : Vbl
  monId : Nat
  value : Str
  trigger : Option Trigger
  cleared : Option Bool
  kind : Kind
deriving DecidableEq, Repr

/-- `UpdaterMonitorMeta` (`monitoring_updater.hpp` l.57-98): `periodic` is the type; then the bits of
`TriggerMetadata` and the times of `PeriodicMetadata`.  The previous value is never read. -/
structure Entry where
  periodic : Bool
  mon : Meta
  comp : Comp
  var : Vbl
  current : Str
  writeOnly : Bool
  sentTriggered : Bool
  generated : Bool
  sent : Bool
  cleared : Bool
  last : Nat
  next : Nat
  events : List Event
deriving DecidableEq, Repr

/-- Device model and monitors, the map of the updater, the next event id, and all events given to
`notify_csms_events` so far. -/
structure U where
  st : Store
  map : List Entry
  uid : Nat
  sent : List Event
deriving DecidableEq, Repr

/-- What `get_monitoring_info` (`monitoring_updater.cpp` l.690-710) and `is_monitoring_enabled` (l.685-688)
read. -/
structure Conf where
  enabled : Bool
  offline : Bool
  offlineSeverity : Int
  level : Int
  base : MBase
deriving DecidableEq, Repr

/-- The steady clock and the system clock. -/
structure Clock where
  steady : Nat
  sys : Nat
deriving DecidableEq, Repr

/-! ### Evaluation -/

/-- Types for which every change triggers (`monitoring_updater.cpp` l.235-237). -/
def trivialType : DataType → Bool
  | .boolean | .string | .dateTime | .optionList | .memberList | .sequenceList => true
  | .decimal | .integer => false

/-- `to_specific_type` (`device_model.hpp` l.50-68) for numbers; `none` is an exception.  Not rounded. -/
def number : DataType → Str → Option Rat
  | .integer, v => (Verif.DM.stoi v).map (fun n => (n : Rat))
  | _, v => Verif.DM.stof v

/-- `triggers_monitor` (`monitoring_updater.cpp` l.15-45); `none` is an exception. -/
def triggers (dt : DataType) (m : Meta) (old new : Str) : Option Bool :=
  if trivialType dt then some (old != new)
  else match number dt new with
    | none => none
    | some x => match m.type with
      | .delta => match m.ref with
        | none => some false
        | some r => (number dt r).map (fun y => decide (m.value < (if y < x then x - y else y - x)))
      | .lower => some (decide (x < m.value))
      | .upper => some (decide (m.value < x))
      | _ => some false

/-- `set_trigger_clear_state` (`monitoring_updater.hpp` l.84-97); `none` is an exception. -/
def setClear (e : Entry) (b : Bool) : Option Entry :=
  if e.periodic then none
  else if e.cleared == b then some e
  else some { e with cleared := b, sent := false, generated := false }

/-- A new entry of a triggered monitor (`monitoring_updater.cpp` l.285-308). -/
def newTrigger (m : Meta) (c : Comp) (v : Vbl) (wo : Bool) (new : Str) : Entry :=
  ⟨false, m, c, v, new, wo, false, false, false, false, 0, 0, []⟩

/-- What `evaluate_monitor` (`monitoring_updater.cpp` l.253-352) makes of the entry of the monitor, if there
is one; the outer `none` is an exception. -/
def evaluateEntry (m : Meta) (c : Comp) (v : Vbl) (wo : Bool) (new : Str) (triggered : Bool)
    (old : Option Entry) : Option (Option Entry) :=
  let e1 := old.map (fun e => { e with current := new })
  if triggered then
    let e := e1.getD (newTrigger m c v wo new)
    if e.cleared && m.type != .delta then (setClear e false).map some
    else if m.type == .delta then some (some { e with cleared := false, generated := false })
    else some (some e)
  else match e1 with
    | none => some none
    | some e => if m.type != .delta && !e.cleared then (setClear e true).map some else some (some e)

/-- The entry of a monitor in the map. -/
def entryOf (map : List Entry) (i : Nat) : Option Entry := map.find? (fun e => e.mon.id == i)

/-- The entry of the monitor is replaced, or inserted. -/
def put (map : List Entry) (i : Nat) : Option Entry → List Entry
  | none => map
  | some e => if (entryOf map i).isSome then map.map (fun x => if x.mon.id == i then e else x) else map ++ [e]

/-- `evaluate_monitor` (`monitoring_updater.cpp` l.220-353); `none` is an exception. -/
def evaluate (u : U) (m : Meta) (c : Comp) (v : Vbl) (dt : DataType) (wo : Bool) (old new : Str) : Option U :=
  if m.type == .periodic || m.type == .periodicAligned then some u
  else match triggers dt m old new with
    | none => none
    | some t => match evaluateEntry m c v wo new t (entryOf u.map m.id) with
      | none => none
      | some r => some { u with
          map := put u.map m.id r,
          st := if t && m.type == .delta && trivialType dt then updateReference u.st m.id new else u.st }

/-- The monitors of a variable. -/
def monitorsOf (s : Store) (c : Comp) (v : Vbl) : List Meta :=
  (s.mem.filter (fun x => x.comp == c && x.var == v)).map (·.mon)

/-- The monitors are evaluated one after the other (`monitoring_updater.cpp` l.368-371). -/
def evaluateAll (c : Comp) (v : Vbl) (dt : DataType) (wo : Bool) (old new : Str) : List Meta → U → Option U
  | [], u => some u
  | m :: r, u => match evaluate u m c v dt wo old new with
    | none => none
    | some w => evaluateAll c v dt wo old new r w

/-- `on_variable_changed` (`monitoring_updater.cpp` l.355-373) for the Actual attribute. -/
def onChanged (u : U) (c : Comp) (v : Vbl) (dt : DataType) (wo : Bool) (old new : Str) : Option U :=
  evaluateAll c v dt wo old new (monitorsOf u.st c v) u

/-- `DeviceModel::set_value` of an Actual attribute with its listener (`device_model.cpp` l.410-432). -/
def write (u : U) (c : Comp) (v : Vbl) (val : Str) (ro : Bool) : Option U :=
  let r := Verif.DM.setValue u.st.dm c v .actual val ro
  let w := { u with st := { u.st with dm := r.2 } }
  if r.1 != .accepted then some u
  else match Verif.DM.find u.st.dm c v with
    | none => some w
    | some e => match Verif.DM.attrOf e .actual with
      | none => some w
      | some a =>
        if a.value.getD [] == val then some w
        else onChanged w c v e.chars.dataType (a.mutability == some .writeOnly) (a.value.getD []) val

/-- `on_monitor_updated` (`monitoring_updater.cpp` l.195-218). -/
def onUpdated (u : U) (m : Meta) (c : Comp) (v : Vbl) (dt : DataType) (wo : Bool) (cur : Str) : Option U :=
  match entryOf u.map m.id with
  | none => some u
  | some _ =>
    let w := { u with map := u.map.map (fun x => if x.mon.id == m.id then { x with mon := m } else x) }
    if m.type == .lower || m.type == .upper then evaluate w m c v dt wo cur cur else some w

/-! ### Periodic monitors -/

/-- A number of seconds, truncated (`duration_cast<seconds>`). -/
def seconds (x : Rat) : Int := if x < 0 then -((-x).floor) else x.floor

/-- `get_next_clock_aligned_point` (`monitoring_updater.cpp` l.68-97) for an interval of `i` seconds; hours
are hours of the system clock.  `none` is undefined behaviour: for 0 the conversion of a number that is none.
Simplified: negative intervals, which the code accepts, are not modelled. -/
def alignedPoint (i : Nat) (now : Nat) : Option Nat :=
  if i = 0 then none
  else
    let h := now / 3600000
    let s := now % 3600000 / 1000
    let n := (s + (i - 1)) / i * i
    some (if 3600 ≤ n then (h + 1) * 3600000 else h * 3600000 + n * 1000)

/-- A new entry of a periodic monitor (`monitoring_updater.cpp` l.389-409). -/
def newPeriodic (t : Clock) (x : Item) : Option Entry :=
  if x.mon.type == .periodic then
    some ⟨true, x.mon, x.comp, x.var, [], false, false, false, false, false, t.steady, 0, []⟩
  else (alignedPoint (seconds x.mon.value).toNat t.sys).map (fun p =>
    ⟨true, x.mon, x.comp, x.var, [], false, false, false, false, false, 0, p, []⟩)

/-- `get_periodic_monitors` (`device_model.cpp` l.870-891). -/
def periodics (s : Store) : List Item :=
  s.mem.filter (fun x => x.mon.type == .periodic || x.mon.type == .periodicAligned)

/-- The insertions of `update_periodic_monitors_internal` (`monitoring_updater.cpp` l.379-419). -/
def addPeriodics (t : Clock) : List Item → List Entry → Option (List Entry)
  | [], map => some map
  | x :: r, map =>
    if (entryOf map x.mon.id).isSome then addPeriodics t r map
    else match newPeriodic t x with
      | none => none
      | some e => addPeriodics t r (map ++ [e])

/-- `update_periodic_monitors_internal` (`monitoring_updater.cpp` l.375-450). -/
def updatePeriodics (t : Clock) (s : Store) (map : List Entry) : Option (List Entry) :=
  (addPeriodics t (periodics s) map).map (fun m =>
    m.filter (fun e => !e.periodic || (periodics s).any (fun x => x.mon.id == e.mon.id)))

/-! ### Processing -/

/-- `is_monitor_active` (`monitoring_updater.cpp` l.47-66). -/
def isActive (b : MBase) (m : Meta) : Bool :=
  match b with
  | .all => true
  | .factoryDefault => m.kind != .custom
  | .hardWiredOnly => m.kind == .hardWired

/-- Whether the monitor is processed (`monitoring_updater.cpp` l.613-630). -/
def shouldProcess (k : Conf) (m : Meta) : Bool :=
  isActive k.base m && (if k.offline then decide (m.severity ≤ k.offlineSeverity) else decide (m.severity ≤ k.level))

/-- `create_notify_event` (`monitoring_updater.cpp` l.99-134). -/
def newEvent (uid : Nat) (t : Clock) (value : Str) (e : Entry) (cleared : Option Bool) : Event :=
  ⟨uid, t.sys, e.comp, e.var, e.mon.id, value,
   match e.mon.type with
   | .periodic | .periodicAligned => some .periodic
   | .delta => some .delta
   | .upper | .lower => some .alerting
   | .target => none,
   cleared, e.mon.kind⟩

/-- Whether a periodic monitor is due, and its entry with the times updated (`monitoring_updater.cpp`
l.465-502); `none` is an exception or undefined behaviour. -/
def due (t : Clock) (e : Entry) : Option (Bool × Entry) :=
  match e.mon.type with
  | .periodic =>
    if seconds e.mon.value * 1000 < (t.steady : Int) - e.last then some (true, { e with last := t.steady })
    else some (false, e)
  | .periodicAligned =>
    if e.next < t.sys then
      (alignedPoint (seconds e.mon.value).toNat t.sys).map (fun p => (true, { e with next := p }))
    else some (false, e)
  | _ => none

/-- `process_monitor_meta_internal` (`monitoring_updater.cpp` l.452-547): the entry with the events generated,
and the next event id; `none` is an exception or undefined behaviour. -/
def generate (t : Clock) (dm : Verif.DM.DM) (uid : Nat) (e : Entry) : Option (Entry × Nat) :=
  if e.periodic then
    match due t e with
    | none => none
    | some (false, e') => some (e', uid)
    | some (true, e') =>
      match Verif.DM.requestValue dm e.comp e.var .actual true with
      | (.accepted, some val) => some ({ e' with events := e'.events ++ [newEvent uid t val e none] }, uid + 1)
      | _ => none
  else if e.generated then some (e, uid)
  else
    let ev := newEvent uid t (if e.writeOnly then [] else e.current) e
      (if e.mon.type == .delta then none else some e.cleared)
    some ({ e with generated := true, events := e.events ++ [ev] }, uid + 1)

/-- What is sent, and what that changes (`monitoring_updater.cpp` l.649-675). -/
def deliver (k : Conf) (e : Entry) : Entry × List Event :=
  if k.offline || e.events.isEmpty then (e, [])
  else if e.periodic then ({ e with events := [] }, e.events)
  else ({ e with events := [], sent := true, sentTriggered := e.sentTriggered || !e.cleared }, e.events)

/-- `should_remove_monitor_meta_internal` (`monitoring_updater.cpp` l.553-579). -/
def shouldRemove (e : Entry) : Bool :=
  if e.periodic then false
  else (!e.sentTriggered && e.cleared) || (e.sentTriggered && e.cleared && e.sent)

/-- What one turn of the loop does with an entry: the iterator stays where it is, an exception leaves the
loop, or the entry is kept or erased, events are sent, and the iterator moves on. -/
inductive Turn
  | stays : Entry → Turn
  | throws : Turn
  | moves : Option Entry → List Event → Nat → Turn
deriving DecidableEq, Repr

/-- One turn of the loop of `process_monitors_internal` (`monitoring_updater.cpp` l.603-682); triggers are
allowed in both calls (l.140, l.192). -/
def turn (k : Conf) (periodicsAllowed : Bool) (t : Clock) (dm : Verif.DM.DM) (uid : Nat) (e : Entry) : Turn :=
  if !periodicsAllowed && e.periodic then .stays e
  else if !shouldProcess k e.mon then
    if e.periodic then .stays { e with events := [] } else .moves none [] uid
  else match generate t dm uid e with
    | none => .throws
    | some (e', uid') =>
      let d := deliver k e'
      .moves (if shouldRemove d.1 then none else some d.1) d.2 uid'

/-- The state of the loop: entries passed, entries ahead. -/
structure Loop where
  passed : List Entry
  ahead : List Entry
  uid : Nat
  sent : List Event
  thrown : Bool
deriving DecidableEq, Repr

/-- One iteration. -/
def iterate (k : Conf) (pa : Bool) (t : Clock) (dm : Verif.DM.DM) (l : Loop) : Loop :=
  if l.thrown then l
  else match l.ahead with
    | [] => l
    | e :: r => match turn k pa t dm l.uid e with
      | .stays e' => { l with ahead := e' :: r }
      | .throws => { l with thrown := true }
      | .moves e' evs uid' => { l with passed := l.passed ++ e'.toList, ahead := r, uid := uid', sent := l.sent ++ evs }

/-- The loop after `n` iterations. -/
def iterations (k : Conf) (pa : Bool) (t : Clock) (dm : Verif.DM.DM) : Nat → Loop → Loop
  | 0, l => l
  | n + 1, l => iterations k pa t dm n (iterate k pa t dm l)

/-- The result of the loop; `none` if it does not end, or ends with an exception. -/
def finish (k : Conf) (pa : Bool) (t : Clock) (dm : Verif.DM.DM) : Nat → List Entry → Option (List Entry × Nat × List Event)
  | uid, [] => some ([], uid, [])
  | uid, e :: r => match turn k pa t dm uid e with
    | .moves e' evs uid' => (finish k pa t dm uid' r).map (fun x => (e'.toList ++ x.1, x.2.1, evs ++ x.2.2))
    | _ => none

/-- `process_monitors_internal` (`monitoring_updater.cpp` l.582-683): called by the timer with `pa = true`, and
by `process_triggered_monitors` (l.191-193) with `pa = false`. -/
def process (k : Conf) (pa : Bool) (t : Clock) (u : U) : Option U :=
  if !k.enabled then some u
  else match (if pa then updatePeriodics t u.st u.map else some u.map) with
    | none => none
    | some map => (finish k pa t u.st.dm u.uid map).map (fun x =>
        { u with map := x.1, uid := x.2.1, sent := u.sent ++ x.2.2 })

end Verif.Mon
