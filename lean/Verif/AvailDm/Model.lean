import Verif.Avail.Model
import Verif.Required.Model
/-
The variable AvailabilityState of the device model of a 2.x charging station: `update_dm_availability_state`
(`lib/ocpp/v2/charge_point.cpp` l.1156-1180), called by the callback the `ComponentStateManager` reports
statuses through (l.425-435).  The availability of the station is the model of `Verif.Avail`, the device model
that of `Verif.DeviceModel`; here both run together.
-/
set_option linter.constructorNameAsVariable false

namespace Verif.AvailDm

open Verif.DM Verif.Req2

/-- Charging station with its device model. -/
structure St where
  s : Avail.State
  dm : DM

/-- `connector_status_enum_to_string` (`lib/ocpp/v2/ocpp_enums.cpp`). -/
def text : Avail.Status → Str
  | .available => "Available".toList
  | .occupied => "Occupied".toList
  | .reserved => "Reserved".toList
  | .unavailable => "Unavailable".toList
  | .faulted => "Faulted".toList

/-- `EvseComponentVariables::AvailabilityState`, which is also that of connectors and of the station. -/
def availabilityState : Vbl := ⟨"AvailabilityState".toList, none⟩

/-- The component of the station (`ChargingStationAvailabilityState`). -/
def stationComp : Comp := ⟨"ChargingStation".toList, none, none⟩

/-- `set_read_only_value` of one AvailabilityState; the result is ignored. -/
def write (dm : DM) (c : Comp) (st : Avail.Status) : DM :=
  match setReadOnlyValue dm c availabilityState .actual (text st) with
  | none => dm
  | some r => r.2

/-- `update_dm_availability_state` (`charge_point.cpp` l.1156-1180). -/
def updateDm (dm : DM) (e c : Nat) (st : Avail.Status) : DM :=
  let d1 := write dm (evseComp e) st
  let d2 := write d1 (connectorComp e c) st
  if e = 0 then write d2 stationComp st else d2

/-- `send_status_notification_single_connector_internal` (`component_state_manager.cpp` l.309-323) with the
callback of `charge_point.cpp` l.425-435: the device model is written before it is known whether the status
can be sent. -/
def report (only : Bool) (e c : Nat) (x : St) : St :=
  let st := Avail.toStatus (x.s.flags e c)
  if !only || x.s.lastReported e c != st then ⟨Avail.report only e c x.s, updateDm x.dm e c st⟩ else x

/-- All connectors (`component_state_manager.cpp` l.324-337). -/
def reportAll (only : Bool) (x : St) : St :=
  (Avail.allConns x.s.conns).foldl (fun x p => report only p.1 p.2 x) x

/-- `Connector::submit_event` (`connector.cpp` l.44-71). -/
def event (e c : Nat) (ev : Avail.Event) (x : St) : St :=
  let f' := Avail.evFlags ev (x.s.flags e c)
  let x' : St := ⟨{ x.s with flags := Avail.upd2 x.s.flags e c f' }, x.dm⟩
  if (ev = .plugIn ∨ ev = .plugOut) ∧ f'.reserved = true then x' else report true e c x'

/-- What happens: the operations of `Verif.Avail` and SetVariables requests. -/
inductive Op where
  | avail (o : Avail.Op)
  | setVariables (guard : DM → SetData → Bool) (ds : List SetData)

/-- An operation of `Verif.Avail`: those that report statuses write the device model as well. -/
def stepAvail (x : St) : Avail.Op → St
  | .event e c ev => if Avail.exists_ x.s.conns e c then event e c ev x else ⟨Avail.emit x.s .threw, x.dm⟩
  | .accepted => reportAll false ⟨{ x.s with online := true }, x.dm⟩
  | .reconnect long => reportAll (!long) ⟨{ x.s with online := true }, x.dm⟩
  | .triggerStatus e c => if Avail.exists_ x.s.conns e c then report false e c x else ⟨Avail.emit x.s .threw, x.dm⟩
  | o => ⟨Avail.step x.s o, x.dm⟩

/-- One step. -/
def step (x : St) : Op → St
  | .avail o => stepAvail x o
  | .setVariables g ds => ⟨x.s, (handleSetVariables g x.dm ds).1⟩

def run (x : St) (h : List Op) : St := h.foldl step x

end Verif.AvailDm
