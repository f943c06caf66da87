/-
Model of the choice of network connections: `lib/ocpp/v2/connectivity_manager.cpp`, with SetNetworkProfile and
the validation of NetworkConfigurationPriority in `lib/ocpp/v2/functional_blocks/provisioning.cpp`.

Each call, timer and event of the websocket is one step; they are not concurrent here.  The websocket itself is
the environment: it may connect, disconnect and give up at any time, and it reconnects on its own with the
options it was given.
-/
set_option linter.constructorNameAsVariable false

namespace Verif.Con

/-- `SetNetworkProfileRequest`: slot, security profile and whether `Uri::parse_and_validate` accepts its URL for
that security profile; `tag` stands for the other contents. -/
structure Prof where
  slot : Int
  sec : Nat
  urlOk : Bool
  tag : Nat
deriving DecidableEq, Repr

/-- What the retry timer does (`connectivity_manager.cpp` l.207-212, l.410-418). -/
inductive Task
  | unusable : Int → Task
  | closed : Bool → Task
deriving DecidableEq, Repr

/-- What can be observed: a connection is attempted with a profile, a slot is found unusable, the variable
SecurityProfile is written, a profile is stored by SetNetworkProfile, the websocket is given other options, the
websocket reconnects on its own. -/
inductive Ev
  | attempt : Prof → Ev
  | unusable : Int → Ev
  | confirmed : Nat → Ev
  | stored : Prof → Ev
  | options : Prof → Ev
  | reconnect : Prof → Ev
deriving DecidableEq, Repr

/-- The members of `ConnectivityManager` (`connectivity_manager.hpp` l.141-151); `ws` says whether the websocket
exists and is connected, `cur` is the profile of its options.  Then the variables of the device model. -/
structure S where
  cached : List Prof
  slots : List Int
  active : Nat
  pending : Option Int
  wants : Bool
  last : Nat
  ws : Option Bool
  cur : Option Prof
  timer : Option Task
  dmProfiles : List Prof
  dmPriority : List Int
  dmSec : Nat
  allowZero : Bool
  log : List Ev
deriving DecidableEq, Repr

/-- The first cached profile of the slot. -/
def rawProfile (l : List Prof) (slot : Int) : Option Prof := l.find? (fun p => p.slot == slot)

/-- `get_network_connection_profile` (`connectivity_manager.cpp` l.75-93). -/
def profileOf (s : S) (slot : Int) : Option Prof :=
  match rawProfile s.cached slot with
  | none => none
  | some p => if !s.allowZero && p.sec == 0 then none else some p

/-- The index of the first occurrence. -/
def indexOf (slot : Int) : List Int → Option Nat
  | [] => none
  | x :: r => if x == slot then some 0 else (indexOf slot r).map (· + 1)

/-- `get_priority_from_configuration_slot` (`connectivity_manager.cpp` l.95-104). -/
def priorityOf (s : S) (slot : Int) : Option Nat := indexOf slot s.slots

/-- `get_active_network_configuration_slot` (`connectivity_manager.cpp` l.106-108); `none` is the exception of
`at`. -/
def activeSlot (s : S) : Option Int := s.slots[s.active]?

/-- `get_next_configuration_slot` (`connectivity_manager.cpp` l.279-292); `none` is the exception of `at`. -/
def nextSlot (s : S) (slot : Int) : Option Int :=
  s.slots[match priorityOf s slot with
    | some i => (i + 1) % s.slots.length
    | none => 0]?

/-- The slots that are kept (`connectivity_manager.cpp` l.457-464). -/
def goodSlots (s : S) (level : Nat) : List Int :=
  s.slots.filter (fun x => match profileOf s x with
    | none => false
    | some p => !decide (p.sec < level))

/-- `check_cache_for_invalid_security_profiles` (`connectivity_manager.cpp` l.446-473), with whether it
throws. -/
def check (s : S) : S × Bool :=
  if s.last == s.dmSec then (s, false)
  else
    let s1 := { s with last := s.dmSec }
    match activeSlot s1 with
    | none => (s1, true)
    | some a =>
      let before := s.pending.getD a
      let s2 := { s1 with slots := goodSlots s1 s.dmSec }
      if (priorityOf s2 before).isSome then ({ s2 with pending := some before }, false)
      else match nextSlot s2 before with
        | none => (s2, true)
        | some n => ({ s2 with pending := some n }, false)

/-- The result of the choice of a slot in `try_connect_websocket` (`connectivity_manager.cpp` l.180-234, l.245):
`cfg` says that the application, if asked, could configure the interface.  A slot without a profile throws
(l.185, l.328-331) before l.188 can look at it. -/
def tryWith (s : S) (slot : Int) (cfg : Bool) : S × Bool :=
  match profileOf s slot with
  | none => (s, true)
  | some p =>
    match priorityOf s slot with
    | none => ({ s with timer := if s.wants then some (.unusable slot) else s.timer, log := s.log ++ [.unusable slot] }, false)
    | some i =>
      if p.urlOk && cfg then
        ({ s with pending := none, active := i, ws := some false, cur := some p, log := s.log ++ [.attempt p] }, false)
      else
        ({ s with timer := if s.wants then some (.unusable slot) else s.timer, log := s.log ++ [.unusable slot] }, false)

/-- `try_connect_websocket` (`connectivity_manager.cpp` l.171-256).  `value_or` evaluates its argument. -/
def tryConnect (s : S) (cfg : Bool) : S × Bool :=
  let c := check s
  if c.2 then c
  else match activeSlot c.1 with
    | none => (c.1, true)
    | some a => tryWith c.1 (c.1.pending.getD a) cfg

/-- `connect` (`connectivity_manager.cpp` l.122-144). -/
def connect (s : S) (slot : Option Int) (cfg : Bool) : S × Bool :=
  if s.slots = [] then (s, false)
  else match activeSlot s with
    | none => (s, true)
    | some a =>
      if (profileOf s (slot.getD a)).isNone then (s, false)
      else
        let s1 := { s with wants := true, pending := some (slot.getD a) }
        if s.ws == some true then (s1, false) else tryConnect s1 cfg

/-- `disconnect` (`connectivity_manager.cpp` l.146-152). -/
def disconnect (s : S) : S × Bool := ({ s with wants := false, timer := none }, false)

/-- `remove_network_connection_profiles_below_actual_security_profile` (`connectivity_manager.cpp` l.475-526).
Simplified: the two values can be written. -/
def prune (s : S) : S :=
  let l := s.dmProfiles.filter (fun p => !decide (p.sec < s.dmSec))
  { s with dmProfiles := l, dmPriority := s.dmPriority.filter (fun x => l.any (fun p => p.slot == x)) }

/-- The variable SecurityProfile is written (`connectivity_manager.cpp` l.157-165); `ok`: the device model
accepts the value. -/
def setLevel (s : S) (slot : Int) (ok : Bool) : S :=
  match profileOf s slot with
  | none => s
  | some p => if ok then { s with dmSec := p.sec, log := s.log ++ [.confirmed p.sec] } else s

/-- `confirm_successful_connection` (`connectivity_manager.cpp` l.154-169). -/
def confirm (s : S) (ok : Bool) : S × Bool :=
  match activeSlot s with
  | none => (s, true)
  | some a => check (prune (setLevel s a ok))

/-- The timer runs out (`connectivity_manager.cpp` l.208-211, l.411-417). -/
def fire (s : S) (cfg : Bool) : S × Bool :=
  match s.timer with
  | none => (s, false)
  | some (.unusable slot) =>
    match nextSlot s slot with
    | none => ({ s with timer := none }, true)
    | some n => tryConnect { s with timer := none, pending := some n } cfg
  | some (.closed true) => tryConnect { s with timer := none } cfg
  | some (.closed false) =>
    match activeSlot s with
    | none => ({ s with timer := none }, true)
    | some a => match nextSlot s a with
      | none => ({ s with timer := none }, true)
      | some n => tryConnect { s with timer := none, pending := some n } cfg

/-- `on_websocket_connected` (`connectivity_manager.cpp` l.382-392) and, if the station is registered,
`websocket_connected_callback` (`charge_point.cpp` l.1081-1087). -/
def wsUp (s : S) (registered ok : Bool) : S × Bool :=
  let s1 := { s with ws := some true }
  match activeSlot s1 with
  | none => (s1, true)
  | some a => if registered && (profileOf s1 a).isSome then confirm s1 ok else (s1, false)

/-- `on_websocket_disconnected` (`connectivity_manager.cpp` l.394-402). -/
def wsDown (s : S) : S × Bool :=
  let s1 := { s with ws := some false }
  (s1, (activeSlot s1).isNone)

/-- `on_websocket_stopped_connecting` (`connectivity_manager.cpp` l.404-420); `restart`: the reason is
ServiceRestart. -/
def wsStopped (s : S) (restart : Bool) : S × Bool :=
  let s1 := { s with ws := some false }
  match activeSlot s1 with
  | none => (s1, true)
  | some _ => (if s.wants then { s1 with timer := some (.closed restart) } else s1, false)

/-- `set_websocket_connection_options_without_reconnect` (`connectivity_manager.cpp` l.50-56). -/
def setOptions (s : S) : S × Bool :=
  match activeSlot s with
  | none => (s, true)
  | some a => match profileOf s a with
    | none => (s, true)
    | some p => if p.urlOk && s.ws.isSome then ({ s with cur := some p, log := s.log ++ [.options p] }, false) else (s, false)

/-- The websocket reconnects with the options it has. -/
def reconnect (s : S) : S × Bool :=
  match s.cur with
  | none => (s, false)
  | some p => ({ s with log := s.log ++ [.reconnect p] }, false)

/-- The last element with this slot is replaced, or the profile is appended (`provisioning.cpp` l.396-412). -/
def store (p : Prof) (l : List Prof) : List Prof :=
  if l.any (fun q => q.slot == p.slot) then
    (match l.reverse.findIdx? (fun q => q.slot == p.slot) with
     | some i => l.set (l.length - 1 - i) p
     | none => l)
  else l ++ [p]

/-- `handle_set_network_profile_req` (`provisioning.cpp` l.352-448): `callback` is the answer of the application
if there is a callback, `written` that the device model accepts the text.  Returns whether Accepted. -/
def setNetworkProfile (s : S) (p : Prof) (callback : Option Bool) (written : Bool) : Bool × S :=
  match callback with
  | none => (false, s)
  | some valid =>
    if p.sec < s.dmSec then (false, s)
    else if !valid then (false, s)
    else if !written then (false, s)
    else (true, { s with dmProfiles := store p s.dmProfiles, log := s.log ++ [.stored p] })

/-- The constructor (`connectivity_manager.cpp` l.22-35, l.422-444) at a restart of the station. -/
def restart (s : S) : S × Bool :=
  ({ s with
      cached := s.dmProfiles, slots := s.dmPriority, active := 0, pending := none, wants := false, last := 0,
      ws := none, cur := none, timer := none },
   !s.allowZero && s.dmProfiles.all (fun p => p.sec == 0))

/-- What happens. The CSMS can also write NetworkConnectionProfiles, NetworkConfigurationPriority (see
`validPriority`) and AllowSecurityLevelZeroConnections, as far as these variables are writable; SecurityProfile
is read only. -/
inductive Op
  | connect : Option Int → Bool → Op
  | disconnect : Op
  | confirm : Bool → Op
  | fire : Bool → Op
  | wsUp : Bool → Bool → Op
  | wsDown : Op
  | wsStopped : Bool → Op
  | setOptions : Op
  | reconnect : Op
  | setNetworkProfile : Prof → Option Bool → Bool → Op
  | setProfiles : List Prof → Op
  | setPriority : List Int → Op
  | setAllowZero : Bool → Op
  | restart : Op
deriving DecidableEq, Repr

/-- One of these, with whether an exception is thrown.  Events of the websocket, and the BootNotification answer
that confirms the connection, occur only if there is a websocket. -/
def step (s : S) : Op → S × Bool
  | .connect slot cfg => connect s slot cfg
  | .disconnect => disconnect s
  | .confirm ok => if s.ws.isSome then confirm s ok else (s, false)
  | .fire cfg => fire s cfg
  | .wsUp r ok => if s.ws.isSome then wsUp s r ok else (s, false)
  | .wsDown => if s.ws.isSome then wsDown s else (s, false)
  | .wsStopped r => if s.ws.isSome then wsStopped s r else (s, false)
  | .setOptions => setOptions s
  | .reconnect => reconnect s
  | .setNetworkProfile p cb w => ((setNetworkProfile s p cb w).2, false)
  | .setProfiles l => ({ s with dmProfiles := l }, false)
  | .setPriority l => ({ s with dmPriority := l }, false)
  | .setAllowZero b => ({ s with allowZero := b }, false)
  | .restart => restart s

/-- The state after a history. -/
def run (s : S) (ops : List Op) : S := ops.foldl (fun s op => (step s op).1) s

/-- Whether an exception is thrown in the course of a history. -/
def throws : S → List Op → Bool
  | _, [] => false
  | s, op :: r => (step s op).2 || throws (step s op).1 r

/-! ### Validation of NetworkConfigurationPriority -/

/-- One element of the list: a number, no number, or one beyond the range of `int`. -/
inductive Elem
  | num : Int → Elem
  | invalid : Elem
  | tooLarge : Elem
deriving DecidableEq, Repr

/-- Answers. -/
inductive Verdict | valid | invalid | throws
deriving DecidableEq, Repr

/-- The certificates: a leaf certificate of the station, a root certificate of the CSMS. -/
structure Certs where
  leaf : Bool
  root : Bool
deriving DecidableEq, Repr

/-- `validate_set_variable` for NetworkConfigurationPriority (`provisioning.cpp` l.629-680).  Only
`invalid_argument` is caught.  Without any profile `stoi` is not called. -/
def validPriority (s : S) (c : Certs) : List Elem → Verdict
  | [] => .valid
  | e :: r =>
    if s.dmProfiles = [] then .invalid
    else match e with
      | .invalid => .invalid
      | .tooLarge => .throws
      | .num n => match rawProfile s.dmProfiles n with
        | none => .invalid
        | some p =>
          if p.sec ≤ s.dmSec then validPriority s c r
          else if p.sec == 3 && !c.leaf then .invalid
          else if decide (2 ≤ p.sec) && !c.root then .invalid
          else validPriority s c r

end Verif.Con
