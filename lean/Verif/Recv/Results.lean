import Verif.Recv.Theorems

/-!
C138: requests that nothing disturbs are answered with a CALLRESULT.
-/

namespace Verif.Recv

open Verif.Wire (J)

/-! ### What the theorems speak of -/

/-- Nothing goes wrong: the database works, the code of the application throws nothing, the contents of the message can be read. -/
def Calm (v : Env) : Prop := v.wild = false ∧ v.dbFails = false ∧ v.odd = false

/-- The request is answered exactly once, with a CALLRESULT. -/
def Granted (l : List Res) (id : String) : Prop := l ≠ [] ∧ ∀ r ∈ l, r.sent = [⟨id, false⟩]

/-- The request is answered exactly once, with a CALLERROR. -/
def Refused (l : List Res) (id : String) : Prop := l ≠ [] ∧ ∀ r ∈ l, r.sent = [⟨id, true⟩]

/-- The requests of OCPP 2.0.1 that a station may refuse by itself although it implements them: too many elements (GetVariables, GetReport,
SetVariableMonitoring), a report with unknown criteria (GetReport, GetMonitoringReport); the part of the station that the other requests need. -/
def answerable2 (s : S2) (action : String) : Bool :=
  match action with
  | "ReserveNow" | "CancelReservation" => s.reservation
  | "SetChargingProfile" | "ClearChargingProfile" | "GetChargingProfiles" | "GetCompositeSchedule" => s.smartCharging
  | "GetDisplayMessages" | "SetDisplayMessage" | "ClearDisplayMessage" => s.displayMessage
  | "CostUpdated" => s.tariffAndCost
  | "SetMonitoringBase" | "SetMonitoringLevel" | "ClearVariableMonitoring" => s.monitoring
  | "CertificateSigned" | "ChangeAvailability" | "ClearCache" | "CustomerInformation" | "DataTransfer" | "DeleteCertificate" | "GetBaseReport"
  | "GetInstalledCertificateIds" | "GetLocalListVersion" | "GetLog" | "GetTransactionStatus" | "InstallCertificate" | "RequestStartTransaction"
  | "RequestStopTransaction" | "Reset" | "SendLocalList" | "SetNetworkProfile" | "SetVariables" | "TriggerMessage" | "UnlockConnector"
  | "UpdateFirmware" => true
  | _ => false

/-- The part of the station a request of OCPP 2.0.1 needs is missing. -/
def missing2 (s : S2) (action : String) : Bool :=
  match action with
  | "ReserveNow" | "CancelReservation" => !s.reservation
  | "SetChargingProfile" | "ClearChargingProfile" | "GetChargingProfiles" | "GetCompositeSchedule" => !s.smartCharging
  | "GetDisplayMessages" | "SetDisplayMessage" | "ClearDisplayMessage" => !s.displayMessage
  | "CostUpdated" => !s.tariffAndCost
  | "SetMonitoringBase" | "SetMonitoringLevel" | "ClearVariableMonitoring" | "SetVariableMonitoring" | "GetMonitoringReport" => !s.monitoring
  | "PublishFirmware" | "UnpublishFirmware" => true
  | _ => false

/-! ### Outcomes -/

/-- One CALLRESULT. -/
def good (o : Outcome) : Bool :=
  match o.answers, o.fin with
  | [false], .ok => true
  | [false], .dead => true
  | _, _ => false

/-- One CALLERROR. -/
def bad (o : Outcome) : Bool :=
  match o.answers, o.fin with
  | [true], .ok => true
  | _, _ => false

theorem finish_good {A : Type} {c al : Exn → Bool} {m : Msg A} (q : Q) {o : Outcome} (ho : good o = true) :
    (finish c al m q o).sent = [⟨m.id, false⟩] := by
  obtain ⟨l, f⟩ := o
  match l, f, ho with
  | [false], .ok, _ => rfl
  | [false], .dead, _ => rfl

theorem finish_bad {A : Type} {c al : Exn → Bool} {m : Msg A} (q : Q) {o : Outcome} (ho : bad o = true) :
    (finish c al m q o).sent = [⟨m.id, true⟩] := by
  obtain ⟨l, f⟩ := o
  match l, f, ho with
  | [true], .ok, _ => rfl

theorem handle16_good {v : Env} (hv : Calm v) (x : Ctx) {a : A16}
    (hx : a = .unlockConnector → ∃ k, x.connector = some k ∧ 0 ≤ k ∧ k ≤ (x.connectors : Int)) (ha : a ∈ acts16) :
    (outs v (handle16 x a)).all good = true := by
  obtain ⟨w, d, o⟩ := v
  obtain ⟨h1, h2, h3⟩ := hv
  cases h1; cases h2; cases h3
  obtain ⟨n, al, bf, c⟩ := x
  by_cases h1 : a = .unlockConnector
  · obtain ⟨k, hk, h0, hn⟩ := hx h1
    subst h1
    cases hk
    have h1 : ¬ (k < 0 ∨ (n : Int) < k) := by simp only at hn; omega
    simp only [handle16, unlockConnector16, h1, if_false]
    split <;> rfl
  · clear hx
    simp only [acts16, List.mem_cons, List.not_mem_nil, or_false] at ha
    rcases ha with h | h | h | h | h | h | h | h | h | h | h | h | h | h | h | h | h | h | h | h | h | h | h | h | h | h <;> subst h <;>
      first
      | exact absurd rfl h1
      | rfl
      | (cases al <;> cases bf <;> rfl)

/-! ### The theorems -/

/-- C138, OCPP 1.6: a request of a feature profile the station has, when nothing goes wrong, is answered with a CALLRESULT: the handlers answer with
errors only after exceptions. -/
theorem C138_16_result (s : S16) (hs : s.conn = .booted ∨ s.conn = .pending ∧ s.reg = .pending) (hv : Calm s.env) (t : Option J)
    (id action : String) (a : A16) (ht : IsRequest t id action) (ha : A16.ofName action = some a) (hresp : ¬ EndsInResponse action)
    (hsup : supported s.features a = true)
    (hunlock : action = "UnlockConnector" → ∃ l c, t = some (.arr l) ∧ connectorOf l = some c ∧ 0 ≤ c ∧ c ≤ (s.connectors : Int)) :
    Granted (callback16 s t) id := by
  obtain ⟨k, rest, hk, rfl, hid⟩ := ht
  unfold callback16
  rw [receive_request A16.ofName .internalError s.q hk hid ha]
  have hact := supported_act ha hresp hsup
  simp only [hsup, Bool.true_eq_false, if_false]
  have hx : a = .unlockConnector →
      ∃ c, connectorOf (k :: .str id :: .str action :: rest) = some c ∧ 0 ≤ c ∧ c ≤ (s.connectors : Int) := by
    intro hu
    subst hu
    obtain ⟨l, c, hl, hc⟩ := hunlock (unlock_name ha)
    simp only [Option.some.injEq, J.arr.injEq] at hl
    subst hl
    exact ⟨c, hc⟩
  have hgood := handle16_good hv ⟨s.connectors, s.resetAllowed, s.resetBefore, connectorOf (k :: .str id :: .str action :: rest)⟩ hx hact
  have hboot : a ≠ .bootNotificationResponse := by
    intro h
    subst h
    simp [acts16] at hact
  have main : ∃ p, dispatch16 s ⟨.call, id, a, k :: .str id :: .str action :: rest⟩ = some p ∧ (outs s.env p).all good = true := by
    rcases hs with h | ⟨h, h'⟩
    · exact ⟨_, by simp only [dispatch16, h]; rfl, hgood⟩
    · by_cases h1 : a = .remoteStartTransaction ∨ a = .remoteStopTransaction
      · refine ⟨reply, by simp [dispatch16, h, h', hboot, h1], ?_⟩
        rfl
      · exact ⟨_, by simp only [dispatch16, h, h', hboot, h1, if_true, if_false], hgood⟩
  obtain ⟨p, hp, hall⟩ := main
  rw [hp]
  simp only
  constructor
  · simpa using outs_ne s.env p
  · intro r hr
    obtain ⟨o, ho, rfl⟩ := List.mem_map.mp hr
    exact finish_good _ (List.all_eq_true.mp hall o ho)

/-- C138, OCPP 1.6: a request of the standard that belongs to no feature profile of the station is refused. -/
theorem C138_16_refused (s : S16) (t : Option J) (id action : String) (a : A16) (ht : IsRequest t id action) (ha : A16.ofName action = some a)
    (hsup : supported s.features a = false) : Refused (callback16 s t) id := by
  obtain ⟨k, rest, hk, rfl, hid⟩ := ht
  unfold callback16
  rw [receive_request A16.ofName .internalError s.q hk hid ha]
  simp [hsup, Refused, of_sent]

/-- All requests of the standard belong to a feature profile. -/
example : requests16.all (fun n => match A16.ofName n with
    | some a => supported [.core, .firmware, .localList, .remoteTrigger, .reservation, .smartCharging, .security] a && !decide (EndsInResponse n)
    | none => false) = true := by decide +kernel

example : Calm ⟨false, false, false⟩ ∧ A16.ofName "SetChargingProfile" = some .setChargingProfile ∧
    supported [.core] .setChargingProfile = false ∧ supported [.smartCharging] .setChargingProfile = true := by
  refine ⟨⟨rfl, rfl, rfl⟩, ?_⟩
  decide +kernel

/-- The requests of OCPP 2.0.1 and their actions. -/
def pairs2 : List (String × A2) :=
  [("CancelReservation", .cancelReservation), ("CertificateSigned", .certificateSigned), ("ChangeAvailability", .changeAvailability),
   ("ClearCache", .clearCache), ("ClearChargingProfile", .clearChargingProfile), ("ClearDisplayMessage", .clearDisplayMessage),
   ("ClearVariableMonitoring", .clearVariableMonitoring), ("CostUpdated", .costUpdated), ("CustomerInformation", .customerInformation),
   ("DataTransfer", .dataTransfer), ("DeleteCertificate", .deleteCertificate), ("GetBaseReport", .getBaseReport),
   ("GetChargingProfiles", .getChargingProfiles), ("GetCompositeSchedule", .getCompositeSchedule), ("GetDisplayMessages", .getDisplayMessages),
   ("GetInstalledCertificateIds", .getInstalledCertificateIds), ("GetLocalListVersion", .getLocalListVersion), ("GetLog", .getLog),
   ("GetMonitoringReport", .getMonitoringReport), ("GetReport", .getReport), ("GetTransactionStatus", .getTransactionStatus),
   ("GetVariables", .getVariables), ("InstallCertificate", .installCertificate), ("PublishFirmware", .publishFirmware),
   ("RequestStartTransaction", .requestStartTransaction), ("RequestStopTransaction", .requestStopTransaction), ("ReserveNow", .reserveNow),
   ("Reset", .reset), ("SendLocalList", .sendLocalList), ("SetChargingProfile", .setChargingProfile), ("SetDisplayMessage", .setDisplayMessage),
   ("SetMonitoringBase", .setMonitoringBase), ("SetMonitoringLevel", .setMonitoringLevel), ("SetNetworkProfile", .setNetworkProfile),
   ("SetVariableMonitoring", .setVariableMonitoring), ("SetVariables", .setVariables), ("TriggerMessage", .triggerMessage),
   ("UnlockConnector", .unlockConnector), ("UnpublishFirmware", .unpublishFirmware), ("UpdateFirmware", .updateFirmware)]

theorem pairs2_names : pairs2.map Prod.fst = requests2 := by decide +kernel

theorem pairs2_acts : pairs2.all (fun p => A2.ofName p.1 == some p.2) = true := by decide +kernel

/-- C138, OCPP 2.x: a request of OCPP 2.0.1 whose part of the station exists, when nothing goes wrong, is answered with a CALLRESULT; a request whose
part is missing with a CALLERROR.  GetVariables, GetReport, SetVariableMonitoring and GetMonitoringReport may be refused for their contents. -/
theorem C138_2_result (s : S2) (hreg : s.reg = .accepted) (hv : Calm s.env) (t : Option J) (id action : String) (ht : IsRequest t id action)
    (hreq : action ∈ requests2) (hslots : SlotsInRange t) :
    (answerable2 s action = true → Granted (callback2 s t) id) ∧ (missing2 s action = true → Refused (callback2 s t) id) := by
  obtain ⟨k, rest, hk, rfl, hid⟩ := ht
  rw [← pairs2_names] at hreq
  obtain ⟨⟨n, a⟩, hmem, hn⟩ := List.mem_map.mp hreq
  simp only at hn
  subst hn
  have ha : A2.ofName n = some a := by simpa using List.all_eq_true.mp pairs2_acts _ hmem
  have hbig : bigSlotOf s.profiles (k :: .str id :: .str n :: rest) = .never := bigSlot_never (hslots _ rfl)
  have key : (answerable2 s n = true →
        (outs s.env (dispatch2 s ⟨.call, id, a, k :: .str id :: .str n :: rest⟩)).all good = true) ∧
      (missing2 s n = true →
        (outs s.env (dispatch2 s ⟨.call, id, a, k :: .str id :: .str n :: rest⟩)).all bad = true) := by
    simp only [dispatch2, hreg, if_true, ctx2, hbig]
    obtain ⟨w, d, o⟩ := hv
    generalize s.env = v at w d o ⊢
    obtain ⟨v1, v2, v3⟩ := v
    cases w; cases d; cases o
    obtain ⟨r0, r1, r2, r3, r4, r5, r6, r7, r8, r9, r10⟩ := s
    clear hbig hslots hreg hk hid ha hreq
    simp only [pairs2, List.mem_cons, List.not_mem_nil, or_false, Prod.mk.injEq] at hmem
    rcases hmem with h | h | h | h | h | h | h | h | h | h | h | h | h | h | h | h | h | h | h | h |
      h | h | h | h | h | h | h | h | h | h | h | h | h | h | h | h | h | h | h | h <;> obtain ⟨h1, h2⟩ := h <;> subst h1 <;> subst h2 <;>
      first
      | exact ⟨fun _ => rfl, fun h => absurd h Bool.false_ne_true⟩
      | exact ⟨fun h => absurd h Bool.false_ne_true, fun _ => rfl⟩
      | exact ⟨fun h => absurd h Bool.false_ne_true, fun h => absurd h Bool.false_ne_true⟩
      | exact ⟨fun h => by cases h; rfl, fun h => by simp only [missing2, Bool.not_eq_true'] at h; cases h; rfl⟩
      | exact ⟨fun h => absurd h Bool.false_ne_true, fun h => by simp only [missing2, Bool.not_eq_true'] at h; cases h; rfl⟩
  have hrecv := receive_request A2.ofName .internalError s.q hk hid (rest := rest) ha
  constructor
  · intro h
    unfold callback2
    rw [hrecv]
    simp only [reduceCtorEq, if_false]
    refine ⟨by simpa using outs_ne s.env _, ?_⟩
    intro r hr
    obtain ⟨o, ho, rfl⟩ := List.mem_map.mp hr
    exact finish_good _ (List.all_eq_true.mp (key.1 h) o ho)
  · intro h
    unfold callback2
    rw [hrecv]
    simp only [reduceCtorEq, if_false]
    refine ⟨by simpa using outs_ne s.env _, ?_⟩
    intro r hr
    obtain ⟨o, ho, rfl⟩ := List.mem_map.mp hr
    exact finish_bad _ (List.all_eq_true.mp (key.2 h) o ho)

/-- Both parts are met: this station has smart charging and no display. -/
example : answerable2 { ex2 with env := ⟨false, false, false⟩ } "SetChargingProfile" = true ∧
    missing2 { ex2 with env := ⟨false, false, false⟩ } "SetDisplayMessage" = true ∧ "SetChargingProfile" ∈ requests2 ∧
    "SetDisplayMessage" ∈ requests2 ∧ IsRequest (exRequest "SetChargingProfile" 1) "7" "SetChargingProfile" :=
  ⟨by decide +kernel, by decide +kernel, by decide +kernel, by decide +kernel, ⟨_, _, Or.inl rfl, rfl, by decide⟩⟩

end Verif.Recv
