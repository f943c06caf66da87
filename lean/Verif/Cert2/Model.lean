import Verif.Cert16.Model
/-!
Model of the checks of certificates of OCPP 2.x: `lib/ocpp/v2/functional_blocks/security.cpp` l.110-133, l.461-505, with their uses in
`lib/ocpp/v2/charge_point.cpp` (l.1081-1136) and `lib/ocpp/v2/functional_blocks/provisioning.cpp` (l.205).

The timers are those of `Verif/Cert16/Model.lean` (`timeout`, `interval`, `stop`); time goes in seconds.  A request for a new certificate is
an event here; what becomes of it is modelled in `Verif/Security`.  So is the report of the connectors' statuses after a reconnection
(`send_status_notification_all_connectors`, `…_changed_connectors`, modelled in `Verif/Avail`).
-/
namespace Verif.Cert2
open Verif.Cert16 (Timer)

/-- What the variables of the device model say: `none`, no value. -/
structure Config where
  clientDelay : Option Nat := none
  clientInterval : Option Nat := none
  v2gDelay : Option Nat := none
  v2gInterval : Option Nat := none
  /-- V2GCertificateInstallationEnabled -/
  v2gEnabled : Option Bool := none
  /-- OfflineThreshold -/
  threshold : Int := 600
deriving DecidableEq, Repr

/-- What happens: the certificate is checked; `sign`: a new one is requested. -/
inductive Ev where
  | client (t : Nat) (sign : Bool)
  | v2g (t : Nat) (sign : Bool)
  /-- The statuses of all connectors are sent, or of those that changed. -/
  | statuses (all : Bool)
deriving DecidableEq, Repr

structure State where
  now : Nat := 0
  online : Bool := false
  accepted : Bool := false
  /-- `time_disconnected`; `none`: zero. -/
  offlineSince : Option Nat := none
  profile : Nat := 0
  clientDays : Int := 0
  v2gDays : Int := 0
  client : Timer := .off
  v2g : Timer := .off
deriving DecidableEq, Repr

/-- `init_certificate_expiration_check_timers` (security.cpp l.110-128). -/
def initTimers (c : Config) (s : State) : State :=
  { s with
    client := if s.profile = 3 then .once (s.now + c.clientDelay.getD 60) else s.client
    v2g := .once (s.now + c.v2gDelay.getD 60) }

/-- `stop_certificate_expiration_check_timers` (security.cpp l.130-133). -/
def stopTimers (s : State) : State :=
  { s with
    client := .off
    v2g := .off }

/-- `scheduled_check_client_certificate_expiration` (security.cpp l.461-477). -/
def fireClient (c : Config) (s : State) : State × List Ev :=
  if s.client.due s.now then
    ({ s with client := .every (s.now + c.clientInterval.getD 43200) (c.clientInterval.getD 43200) },
     [.client s.now (decide (s.clientDays < 30))])
  else (s, [])

/-- `scheduled_check_v2g_certificate_expiration` (security.cpp l.479-505). -/
def fireV2g (c : Config) (s : State) : State × List Ev :=
  if s.v2g.due s.now then
    ({ s with v2g := .every (s.now + c.v2gInterval.getD 43200) (c.v2gInterval.getD 43200) },
     if c.v2gEnabled.getD false then [.v2g s.now (decide (s.v2gDays < 30))] else [])
  else (s, [])

/-- A second passes. -/
def tick (c : Config) (s : State) : State × List Ev :=
  let a := fireClient c { s with now := s.now + 1 }
  let b := fireV2g c a.1
  (b.1, a.2 ++ b.2)

/-- What can happen.  `connected p`: the connection is there; `p` is the security profile of it, which becomes the station's
(`confirm_successful_connection`, modelled in `Verif/Connect`).  `accepted`: the CSMS accepts the station. -/
inductive Op where
  | tick
  | connected (profile : Nat)
  | disconnected
  | accepted
  | days (client v2g : Int)
deriving DecidableEq, Repr

/-- l.1086-1109, for an accepted station: the statuses and the timers, if `time_disconnected` is set. -/
def resume (c : Config) (s : State) : State × List Ev :=
  match s.offlineSince with
  | none => (s, [])
  | some t => (initTimers c s, [.statuses (decide (c.threshold < (s.now : Int) - t))])

/-- `websocket_connected_callback` (charge_point.cpp l.1081-1119). -/
def connected (c : Config) (s : State) (p : Nat) : State × List Ev :=
  if s.accepted then
    let r := resume c { s with online := true, profile := p }
    ({ r.1 with offlineSince := none }, r.2)
  else ({ s with online := true, offlineSince := none }, [])

/-- `websocket_disconnected_callback` (charge_point.cpp l.1121-1136). -/
def disconnected (c : Config) (s : State) : State :=
  { stopTimers s with
    online := false
    offlineSince := if c.threshold ≠ 0 then some s.now else s.offlineSince }

/-- The accepted BootNotification response (provisioning.cpp l.180-208): the profile of the connection is confirmed, then the timers are set. -/
def accept (c : Config) (s : State) (p : Nat) : State := initTimers c { s with accepted := true, profile := p }

/-- One step; `p`: the security profile of the connection in use. -/
def step (c : Config) (ps : State × Nat) : Op → (State × Nat) × List Ev
  | .tick => (((tick c ps.1).1, ps.2), (tick c ps.1).2)
  | .connected p => if ps.1.online then (ps, []) else (((connected c ps.1 p).1, p), (connected c ps.1 p).2)
  | .disconnected => if ps.1.online then ((disconnected c ps.1, ps.2), []) else (ps, [])
  | .accepted => if ps.1.online then ((accept c ps.1 ps.2, ps.2), []) else (ps, [])
  | .days a b =>
    (({ ps.1 with
        clientDays := a
        v2gDays := b }, ps.2), [])

/-- A history. -/
def run (c : Config) (s : State × Nat) : List Op → (State × Nat) × List Ev
  | [] => (s, [])
  | o :: os => ((run c (step c s o).1 os).1, (step c s o).2 ++ (run c (step c s o).1 os).2)

end Verif.Cert2
