import Verif.ProfileStore.Model
import Verif.SmartCharging.V16Model
import Verif.Display.Model

/-!
# Requests for composite schedules

Models the functions that hand out composite schedules: GetCompositeSchedule.req of both versions and the functions of the application,
together with the purposes that are ignored while the station is offline.

2.x: lib/ocpp/v2/functional_blocks/smart_charging.cpp l.298-314, 363-386, 486-515, 1260-1319, lib/ocpp/v2/utils.cpp l.209-229.
1.6: lib/ocpp/v16/charge_point_impl.cpp l.1310-1334, 1680-1720, 2525-2562, 3613-3665, lib/ocpp/v16/smart_charging.cpp l.144-167,
lib/ocpp/v16/charge_point_configuration.cpp l.467-482.

The calculation itself is the one of `Verif.SC2` and `Verif.SC16`, the profiles that are used come from `Verif.PS`.

Simplifications: instants are seconds; the variables that are read are a record; the required variable with the units has a value; `sort`
stands for the sorting by stack level; the schedules of the application's function for all EVSEs of 2.x are calculated at the same instant.
-/

namespace Verif.CompReq
open Verif.SC16 (RUnit)
open Verif.DM (Str splitString)
open Verif.Display (trim)
open Verif.SC (Step intMax)

/-! ## OCPP 2.x -/

/-- `string_to_charging_rate_unit_enum` (lib/ocpp/v2/ocpp_enums.cpp l.1617-1626); `none` stands for the exception. -/
def unitOf (s : Str) : Option RUnit :=
  if s = "W".toList then some .W else if s = "A".toList then some .A else none

/-- `string_to_charging_profile_purpose_enum` (ocpp_enums.cpp l.805-826); `none` stands for the exception. -/
def purposeOf (s : Str) : Option PS.Purpose :=
  if s = "ChargingStationExternalConstraints".toList then some .external
  else if s = "ChargingStationMaxProfile".toList then some .stationMax
  else if s = "TxDefaultProfile".toList then some .txDefault
  else if s = "TxProfile".toList then some .tx
  else if s = "PriorityCharging".toList then some .priority
  else if s = "LocalGeneration".toList then some .localGeneration
  else none

/-- `get_charging_profile_purposes` (utils.cpp l.209-221): unknown names are skipped. -/
def purposesOf (csl : Str) : List PS.Purpose := (splitString csl).filterMap purposeOf

/-- `get_purposes_to_ignore` (utils.cpp l.223-229). -/
def purposesToIgnore (csl : Str) (offline : Bool) : List PS.Purpose :=
  if !offline || csl.isEmpty then [] else purposesOf csl

/-- The variables that are read: ChargingScheduleChargingRateUnit, IgnoredProfilePurposesOffline, CompositeScheduleDefaultLimitAmps,
CompositeScheduleDefaultLimitWatts, CompositeScheduleDefaultNumberPhases, SupplyVoltage. -/
structure Vars where
  units : Str
  ignored : Option Str := none
  amps : Option Int := none
  watts : Option Int := none
  phases : Option Int := none
  voltage : Option Int := none

/-- What the answer depends on: stored profiles and EVSEs, since when the EVSEs have a transaction, variables, connection. -/
structure World where
  store : PS.State
  session : Nat → Option Int
  vars : Vars
  connected : Bool

/-- `CompositeScheduleConfig` (smart_charging.cpp l.487-515): limits; DEFAULT_LIMIT_AMPS = 48, DEFAULT_LIMIT_WATTS = 33120,
DEFAULT_AND_MAX_NUMBER_PHASES = 3, LOW_VOLTAGE = 230 (include/ocpp/common/constants.hpp). -/
def config (w : World) : SC2.Config where
  v21 := w.store.env.v21
  currentLimit := w.vars.amps.getD 48
  powerLimit := w.vars.watts.getD 33120
  phases := w.vars.phases.getD 3
  voltage := w.vars.voltage.getD 230

/-- `CompositeScheduleConfig` (l.494-498): purposes to ignore. -/
def ignored (w : World) : List PS.Purpose := purposesToIgnore (w.vars.ignored.getD []) (!w.connected)

/-- `CompositeSchedule`. -/
structure Schedule where
  evse : Int
  start : Int
  duration : Int
  unit : RUnit
  periods : List (Step SC2.Out)
deriving DecidableEq

/-- `calculate_composite_schedule` (l.553-627). -/
def calculate (sort : SC2.Sorter) (w : World) (evse : Int) (unit : RUnit) (now stop : Int) (simulate : Bool) : Schedule where
  evse := evse
  start := now
  duration := if stop - now ≤ intMax then stop - now else intMax
  unit := unit
  periods := SC2.composite sort (config w) (PS.stationOf w.store (ignored w) w.session) evse.toNat unit now stop simulate

/-- `std::any_of` (l.1283-1287): stops at the first match; an unknown name before it throws (`none`). -/
def supported (u : RUnit) : List Str → Option Bool
  | [] => some false
  | x :: r => match unitOf x with
    | none => none
    | some v => if v = u then some true else supported u r

/-- The unit of the schedule (l.1276-1293): `none` for an exception, `some none` for no unit. -/
def chooseUnit (units : Str) (asked : Option RUnit) : Option (Option RUnit) :=
  let l := (splitString units).map trim
  match asked with
  | some u => (supported u l).map fun b => if b then some u else none
  | none => match l with
    | [] => some none
    | x :: _ => (unitOf x).map some

/-- `GetCompositeScheduleResponse`, or an exception. -/
inductive Answer
  | accepted (s : Schedule)
  | rejected (reasonCode additionalInfo : String)
  | exception
deriving DecidableEq

/-- `does_evse_exist` (evse_manager.cpp l.58-60). -/
def evseExists (w : World) (evse : Int) : Bool := decide (0 ≤ evse ∧ evse ≤ w.store.env.evses.length)

/-- `get_composite_schedule_internal` (l.1271-1319) with the texts of l.75, 109, 175, 214. -/
def internal (sort : SC2.Sorter) (w : World) (now : Int) (evse duration : Int) (asked : Option RUnit) (simulate : Bool) : Answer :=
  match chooseUnit w.vars.units asked with
  | none => .exception
  | some (some u) =>
    if evseExists w evse then .accepted (calculate sort w evse u now (now + duration) simulate)
    else .rejected "InvalidValue" "EvseDoesNotExist"
  | some none => .rejected "UnsupportedRateUnit" "ChargingScheduleChargingRateUnitUnsupported"

/-- `handle_get_composite_schedule_req` (l.1260-1269) and `get_composite_schedule(request)` (l.298-300); the default of
`simulate_transaction_active` is `true` (smart_charging.hpp l.276-277). -/
def request (sort : SC2.Sorter) (w : World) (now : Int) (evse duration : Int) (asked : Option RUnit) : Answer :=
  internal sort w now evse duration asked true

/-- `clamp_to<std::int32_t>` (utils.hpp l.47-49) of a 64 bit number: too small numbers wrap. -/
def clamp32 (x : Int) : Int :=
  if x ≤ intMax then (x + 2147483648) % 4294967296 - 2147483648 else intMax

/-- `get_composite_schedule(evse_id, duration, unit)` (l.302-314): outer `none` for an exception. -/
def appSchedule (sort : SC2.Sorter) (w : World) (now : Int) (evse duration : Int) (unit : RUnit) : Option (Option Schedule) :=
  match internal sort w now evse (clamp32 duration) (some unit) false with
  | .accepted s => some (some s)
  | .rejected _ _ => some none
  | .exception => none

/-- One turn of the loop of `get_all_composite_schedules`. -/
def addSchedule (acc : Option (List Schedule)) (a : Answer) : Option (List Schedule) :=
  match acc, a with
  | none, _ => none
  | some l, .accepted s => some (l ++ [s])
  | some l, .rejected _ _ => some l
  | some _, .exception => none

/-- `get_all_composite_schedules` (l.363-386): `none` for an exception. -/
def allSchedules (sort : SC2.Sorter) (w : World) (now : Int) (duration : Int) (unit : RUnit) : Option (List Schedule) :=
  ((List.range (w.store.env.evses.length + 1)).map fun (k : Nat) => request sort w now k duration (some unit)).foldl addSchedule (some [])

/-! ## OCPP 1.6 -/

/-- `ChargePointConnectionState` (include/ocpp/v16/types.hpp). -/
inductive CState
  | disconnected | connected | booted | pending | rejected
deriving DecidableEq, Repr

/-- `string_to_charging_profile_purpose_type` (lib/ocpp/v16/ocpp_enums.cpp); `none` stands for the exception. -/
def purposeOf16 (s : Str) : Option SC16.Purpose :=
  if s = "ChargePointMaxProfile".toList then some .chargePointMax
  else if s = "TxDefaultProfile".toList then some .txDefault
  else if s = "TxProfile".toList then some .tx
  else none

/-- The station: profiles and connectors, configuration keys (ChargingScheduleAllowedChargingRateUnit as units, IgnoredProfilePurposesOffline,
MaxCompositeScheduleDuration, CompositeScheduleDefault…, SupplyVoltage), whether the websocket is connected, `connection_state`. -/
structure Station where
  handler : SC16.Handler
  allowed : List RUnit := [.A, .W]
  ignored : Option Str := none
  maxDuration : Int := 31536000
  amps : Option Int := none
  watts : Option Int := none
  phases : Option Int := none
  voltage : Option Int := none
  connected : Bool := false
  state : CState := .disconnected

/-- `getIgnoredProfilePurposesOffline` (charge_point_configuration.cpp l.467-482). -/
def ignored16 (s : Station) : List SC16.Purpose :=
  match s.ignored with
  | none => []
  | some l => (splitString l).filterMap purposeOf16

/-- `CompositeScheduleConfig` (smart_charging.cpp l.144-167). -/
def config16 (s : Station) (offline : Bool) : SC16.Config where
  ignore := if offline then ignored16 s else []
  currentLimit := s.amps.getD 48
  powerLimit := s.watts.getD 33120
  phases := s.phases.getD 3
  voltage := s.voltage.getD 230

/-- `ChargingSchedule`, as far as it is filled. -/
structure Schedule16 where
  start : Int
  duration : Int
  unit : RUnit
  periods : List (Step (Rat × Option Int))
deriving DecidableEq

/-- `EnhancedChargingSchedule`, as far as it is filled. -/
structure Enhanced16 where
  start : Int
  duration : Int
  unit : RUnit
  periods : List (Step SC16.Out)
deriving DecidableEq

/-- `calculate_composite_schedule` (smart_charging.cpp l.202-220). -/
def calculate16 (sort : SC16.Sorter) (s : Station) (c : Nat) (unit : RUnit) (now stop : Int) (offline simulate : Bool) : Schedule16 where
  start := now
  duration := if stop - now ≤ intMax then stop - now else intMax
  unit := unit
  periods := SC16.plainComposite sort (config16 s offline) s.handler c unit now stop simulate

/-- `calculate_enhanced_composite_schedule` (smart_charging.cpp l.222-302). -/
def enhanced16 (sort : SC16.Sorter) (s : Station) (c : Nat) (unit : RUnit) (now stop : Int) (offline simulate : Bool) : Enhanced16 where
  start := now
  duration := if stop - now ≤ intMax then stop - now else intMax
  unit := unit
  periods := SC16.composite sort (config16 s offline) s.handler c unit now stop simulate

/-- `GetCompositeScheduleResponse` of 1.6 (`accepted connectorId scheduleStart chargingSchedule`), or an exception. -/
inductive Answer16
  | accepted (connector start : Int) (s : Schedule16)
  | rejected
  | exception
deriving DecidableEq

/-- `handleGetCompositeScheduleRequest` (l.2525-2562). -/
def request16 (sort : SC16.Sorter) (s : Station) (now : Int) (connector duration : Int) (asked : Option RUnit) : Answer16 :=
  if (s.handler.connectors.length : Int) < connector ∨ connector < 0 then .rejected
  else if asked.any (fun u => !s.allowed.contains u) then .rejected
  else match asked.or s.allowed.head? with
    | none => .exception
    | some u => .accepted connector now
        (calculate16 sort s connector.toNat u now (now + min s.maxDuration duration) (!s.connected) true)

/-- `get_all_composite_charging_schedules` (l.3613-3638); what is computed from the purposes there is not used. -/
def all16 (sort : SC16.Sorter) (s : Station) (now : Int) (duration : Int) (unit : RUnit) : List (Nat × Schedule16) :=
  (List.range (s.handler.connectors.length + 1)).map fun c =>
    (c, calculate16 sort s c unit now (now + duration) (!s.connected) true)

/-- `get_all_enhanced_composite_charging_schedules` (l.3640-3665): offline is what `connection_state` says. -/
def allEnhanced16 (sort : SC16.Sorter) (s : Station) (now : Int) (duration : Int) (unit : RUnit) : List (Nat × Enhanced16) :=
  (List.range (s.handler.connectors.length + 1)).map fun c =>
    (c, enhanced16 sort s c unit now (now + duration) (decide (s.state ≠ .booted)) true)

/-- What happens to the connection: the websocket connects or disconnects, BootNotification.conf arrives. -/
inductive Ev16
  | connected | disconnected | bootAccepted | bootPending | bootRejected
deriving DecidableEq

/-- `connected_callback` (l.1310-1334), the callback of the disconnected websocket (l.320-340, `connection_state` is not changed) and
`handleBootNotificationResponse` (l.1680-1720). -/
def step16 (s : Station) : Ev16 → Station
  | .connected => { s with
      connected := true
      state := if s.state = .disconnected then .connected else s.state }
  | .disconnected => { s with connected := false }
  | .bootAccepted => { s with state := .booted }
  | .bootPending => { s with state := .pending }
  | .bootRejected => { s with state := .rejected }

def run16 (s : Station) (evs : List Ev16) : Station := evs.foldl step16 s

end Verif.CompReq
