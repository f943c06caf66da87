import Verif.AvailDm.Model
import Verif.Avail.Spec
import Verif.Required.Spec
/-
Words of the properties about AvailabilityState.
-/
namespace Verif.AvailDm

open Verif.DM Verif.Req2

/-- The names of OCPP 2.0.1 for the statuses. -/
def statusName : Avail.Status → String
  | .available => "Available"
  | .occupied => "Occupied"
  | .reserved => "Reserved"
  | .unavailable => "Unavailable"
  | .faulted => "Faulted"

/-- The value of AvailabilityState of the component in the device model is this text. -/
def Says (dm : DM) (c : Comp) (val : Str) : Prop := Value dm (c, vbl "AvailabilityState") val

/-- The device model shows this status for the component. -/
def Shows (dm : DM) (c : Comp) (st : Avail.Status) : Prop := Says dm c (statusName st).toList

/-- The component of EVSE `e`. -/
def theEvse (e : Nat) : Comp := ⟨"EVSE".toList, none, some ((e : Int), none)⟩

/-- The component of connector `c` of EVSE `e`. -/
def theConnector (e c : Nat) : Comp := ⟨"Connector".toList, none, some ((e : Int), some (c : Int))⟩

/-- The component of the station. -/
def theStation : Comp := ⟨"ChargingStation".toList, none, none⟩

/-- The component has the variable AvailabilityState as the configuration files describe it: an option list
of the five names, which the CSMS can only read. -/
def Declares (dm : DM) (c : Comp) : Prop :=
  ∃ e ∈ dm, e.comp = c ∧ e.var = vbl "AvailabilityState" ∧ e.chars.dataType = .optionList ∧
    e.chars.valuesList = some "Available,Occupied,Reserved,Unavailable,Faulted".toList ∧
    ∃ x ∈ e.attrs, x.type = .actual ∧ x.mutability = some .readOnly

/-- A device model that describes the station, its EVSEs and connectors. -/
structure Fit (dm : DM) (conns : List Nat) : Prop where
  wf : WellFormed dm
  station : Declares dm theStation
  evse : ∀ e, Avail.Exists conns (.evse e) → Declares dm (theEvse e)
  connector : ∀ e c, Avail.Exists conns (.conn e c) → Declares dm (theConnector e c)

/-- The operations of the availability model in a history. -/
def availOps (h : List Op) : List Avail.Op :=
  h.filterMap (fun o => match o with | .avail a => some a | .setVariables _ _ => none)

end Verif.AvailDm
