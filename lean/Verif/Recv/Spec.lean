import Verif.Recv.Model

/-!
What the properties about answers to the CSMS speak of.
-/

namespace Verif.Recv

open Verif.Wire (J)

/-- The JSON number `n`, written as an integer or as a decimal. -/
def IsNumber (n : Int) (j : J) : Prop := j = .int n ∨ j = .dec n

/-- The text is a request of the CSMS: `[2, id, action, …]` with an id of at most 36 bytes, as the standard prescribes. -/
def IsRequest (t : Option J) (id action : String) : Prop :=
  ∃ k rest, IsNumber 2 k ∧ t = some (.arr (k :: .str id :: .str action :: rest)) ∧ id.utf8ByteSize ≤ 36

/-- The text is the answer of the CSMS to a request of the station: `[3, id, …]` or `[4, id, …]`. -/
def IsReply (t : Option J) (id : String) : Prop :=
  ∃ k rest, (IsNumber 3 k ∨ IsNumber 4 k) ∧ t = some (.arr (k :: .str id :: rest)) ∧ id.utf8ByteSize ≤ 36

/-- The name ends in "Response": no request has such a name. -/
def EndsInResponse (action : String) : Prop := "Response".toList <:+ action.toList

instance (action : String) : Decidable (EndsInResponse action) := by unfold EndsInResponse; infer_instance

/-- The requests of a CSMS: OCPP 1.6 (edition 2, sections 5.1 to 5.20) and the security whitepaper. -/
def requests16 : List String :=
  ["CancelReservation", "ChangeAvailability", "ChangeConfiguration", "ClearCache", "ClearChargingProfile", "DataTransfer", "GetCompositeSchedule",
   "GetConfiguration", "GetDiagnostics", "GetLocalListVersion", "RemoteStartTransaction", "RemoteStopTransaction", "ReserveNow", "Reset",
   "SendLocalList", "SetChargingProfile", "TriggerMessage", "UnlockConnector", "UpdateFirmware", "CertificateSigned", "DeleteCertificate",
   "ExtendedTriggerMessage", "GetInstalledCertificateIds", "GetLog", "InstallCertificate", "SignedUpdateFirmware"]

/-- The requests of a CSMS: OCPP 2.0.1, part 2. -/
def requests2 : List String :=
  ["CancelReservation", "CertificateSigned", "ChangeAvailability", "ClearCache", "ClearChargingProfile", "ClearDisplayMessage",
   "ClearVariableMonitoring", "CostUpdated", "CustomerInformation", "DataTransfer", "DeleteCertificate", "GetBaseReport", "GetChargingProfiles",
   "GetCompositeSchedule", "GetDisplayMessages", "GetInstalledCertificateIds", "GetLocalListVersion", "GetLog", "GetMonitoringReport", "GetReport",
   "GetTransactionStatus", "GetVariables", "InstallCertificate", "PublishFirmware", "RequestStartTransaction", "RequestStopTransaction",
   "ReserveNow", "Reset", "SendLocalList", "SetChargingProfile", "SetDisplayMessage", "SetMonitoringBase", "SetMonitoringLevel",
   "SetNetworkProfile", "SetVariableMonitoring", "SetVariables", "TriggerMessage", "UnlockConnector", "UnpublishFirmware", "UpdateFirmware"]

/-- The requests of a station: OCPP 1.6 (edition 2, sections 4.1 to 4.10) and the security whitepaper. -/
def own16 : List String :=
  ["Authorize", "BootNotification", "DataTransfer", "DiagnosticsStatusNotification", "FirmwareStatusNotification", "Heartbeat", "MeterValues",
   "StartTransaction", "StatusNotification", "StopTransaction", "LogStatusNotification", "SecurityEventNotification", "SignCertificate",
   "SignedFirmwareStatusNotification"]

/-- The requests of a station: OCPP 2.0.1, part 2. -/
def own2 : List String :=
  ["Authorize", "BootNotification", "ClearedChargingLimit", "DataTransfer", "FirmwareStatusNotification", "Get15118EVCertificate",
   "GetCertificateStatus", "Heartbeat", "LogStatusNotification", "MeterValues", "NotifyChargingLimit", "NotifyCustomerInformation",
   "NotifyDisplayMessages", "NotifyEVChargingNeeds", "NotifyEVChargingSchedule", "NotifyEvent", "NotifyMonitoringReport", "NotifyReport",
   "PublishFirmwareStatusNotification", "ReportChargingProfiles", "ReservationStatusUpdate", "SecurityEventNotification", "SignCertificate",
   "StatusNotification", "TransactionEvent"]

/-- What is in flight is a request of the station. -/
def OwnInFlight (own : List String) (q : Q) : Prop := ∀ id action, q.inFlight = some (id, action) → action ∈ own

/-- The request is answered exactly once, and nothing else is sent as an answer: a CALLRESULT or a CALLERROR with the id of the request. -/
def AnsweredOnce (l : List Res) (id : String) : Prop :=
  l ≠ [] ∧ ∀ r ∈ l, ∃ e, r.sent = [⟨id, e⟩]

/-- The connector named in a text, if it is a request with that member, is 0 or one of the station. -/
def ConnectorExists (n : Nat) (t : Option J) : Prop :=
  ∀ l c, t = some (.arr l) → connectorOf l = some c → 0 ≤ c ∧ c ≤ (n : Int)

/-- The request does not write a number outside of the range of `int` to NetworkConfigurationPriority. -/
def SlotsInRange (t : Option J) : Prop :=
  ∀ l, t = some (.arr l) → bigSlotOf true l = .never

/-- The state of the connection of a 1.6 station agrees with its registration, and it is connected. -/
def Consistent (s : S16) : Prop :=
  s.conn ≠ .disconnected ∧ (s.conn = .rejected → s.reg = .rejected) ∧ (s.conn = .pending → s.reg = .pending)

/-- The messages `h` arrive one after the other, each in the state that is given with it; from `q` to `q'`, the process goes on.  Of the queue only
what it waits to answer is taken over from one message to the next; its own requests in flight may be any. -/
inductive Session16 : Option String → List (S16 × Option J) → Option String → Prop
  | nil (h : Option String) : Session16 h [] h
  | cons {h h' : Option String} {s : S16} {t : Option J} {rest : List (S16 × Option J)} (r : Res)
      (hr : r ∈ callback16 { s with q := { s.q with hold := h } } t) (hd : r.dead = false) (hrest : Session16 r.q.hold rest h') :
      Session16 h ((s, t) :: rest) h'

/-- The same for 2.x. -/
inductive Session2 : Option String → List (S2 × Option J) → Option String → Prop
  | nil (h : Option String) : Session2 h [] h
  | cons {h h' : Option String} {s : S2} {t : Option J} {rest : List (S2 × Option J)} (r : Res)
      (hr : r ∈ callback2 { s with q := { s.q with hold := h } } t) (hd : r.dead = false) (hrest : Session2 r.q.hold rest h') :
      Session2 h ((s, t) :: rest) h'

end Verif.Recv
