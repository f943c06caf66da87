/-!
Model of the timers for certificates of OCPP 1.6, `lib/ocpp/v16/charge_point_impl.cpp`: the check of the client certificate, the check of
the V2G certificate and the update of the OCSP cache.

The timers are `Everest::SteadyTimer` (a dependency): `timeout(d)` calls the callback once after `d`, `interval(d)` calls it every `d`,
each replaces what was set before, `stop` cancels it.  Time goes in seconds; what falls due in a second is called at its end, in a fixed
order.  The requests themselves (`sign_certificate`, `data_transfer_pnc_sign_certificate`, `data_transfer_pnc_get_certificate_status`) are
events here.
-/
namespace Verif.Cert16

/-- A timer. -/
inductive Timer where
  | off
  /-- Once, at the time. -/
  | once (at_ : Nat)
  /-- At the time and every `d` seconds after. -/
  | every (next d : Nat)
deriving DecidableEq, Repr

/-- What happens, and when. -/
inductive Ev where
  /-- The OCSP cache is updated, l.2860-2872. -/
  | ocsp (t : Nat)
  /-- The client certificate is checked, l.109-121; `sign`: a new one is requested. -/
  | client (t : Nat) (sign : Bool)
  /-- The V2G certificate is checked, l.123-135; `sign`: a new one is requested. -/
  | v2g (t : Nat) (sign : Bool)
deriving DecidableEq, Repr

/-- The state.  `pnc`: the feature profile PnC is supported; `mgmt`: ISO15118CertificateManagementEnabled; `profile`: SecurityProfile;
`clientDays`, `v2gDays`: the days until the certificates expire, `get_leaf_expiry_days_count`. -/
structure State where
  now : Nat := 0
  pnc : Bool := true
  mgmt : Bool := true
  profile : Nat := 3
  clientDays : Int := 0
  v2gDays : Int := 0
  ocsp : Timer := .off
  client : Timer := .off
  v2g : Timer := .off
deriving DecidableEq, Repr

/-- The intervals of the three timers and the first delay, l.29-32: 12 h and 60 s. -/
def halfDay : Nat := 12 * 60 * 60
def firstDelay : Nat := 60

/-- Is the timer due? -/
def Timer.due (now : Nat) : Timer → Bool
  | .off => false
  | .once t => decide (t ≤ now)
  | .every t _ => decide (t ≤ now)

/-- The callback of the OCSP timer, l.207-210. -/
def fireOcsp (s : State) : State × List Ev :=
  if s.ocsp.due s.now then ({ s with ocsp := .every (s.now + halfDay) halfDay }, [.ocsp s.now]) else (s, [])

/-- The callback of the client certificate's timer, l.109-121. -/
def fireClient (s : State) : State × List Ev :=
  if s.client.due s.now then ({ s with client := .every (s.now + halfDay) halfDay }, [.client s.now (decide (s.clientDays < 30))]) else (s, [])

/-- The callback of the V2G certificate's timer, l.123-135. -/
def fireV2g (s : State) : State × List Ev :=
  if s.v2g.due s.now then ({ s with v2g := .every (s.now + halfDay) halfDay }, [.v2g s.now (decide (s.v2gDays < 30))]) else (s, [])

/-- A second passes. -/
def tick (s : State) : State × List Ev :=
  let a := fireOcsp { s with now := s.now + 1 }
  let b := fireClient a.1
  let c := fireV2g b.1
  (c.1, a.2 ++ b.2 ++ c.2)

/-- `is_iso15118_certificate_management_enabled`, l.3671-3674. -/
def State.managed (s : State) : Bool := s.pnc && s.mgmt

/-- The CSMS accepts the station, l.1701-1713. -/
def accepted (s : State) : State :=
  let s := if s.managed then
    { s with
      ocsp := .once (s.now + firstDelay)
      v2g := .once (s.now + firstDelay) } else s
  if s.profile = 3 then { s with client := .once (s.now + firstDelay) } else s

/-- The connection is lost, l.319-332 (and `stop`, l.1272-1280). -/
def disconnected (s : State) : State :=
  { s with
    ocsp := .off
    client := .off
    v2g := .off }

/-- ChangeConfiguration of ISO15118CertificateManagementEnabled, l.1953-1962; without PnC the key is not known. -/
def management (s : State) (b : Bool) : State :=
  if s.pnc then
    if b then
      { s with
        mgmt := true
        ocsp := .once (s.now + firstDelay)
        v2g := .once (s.now + firstDelay) }
    else
      { s with
        mgmt := false
        ocsp := .off
        v2g := .off }
  else s

/-- ChangeConfiguration of OcspRequestInterval, l.1963-1967 and charge_point_configuration.cpp l.4039-4050: less than a day is rejected. -/
def interval (s : State) (n : Nat) : State :=
  if n < 86400 then s else if s.managed then { s with ocsp := .every (s.now + n) n } else s

/-- A new V2G certificate by DataTransfer CertificateSigned, l.4084-4091: the handler exists with PnC only (l.186-206). -/
def newV2g (s : State) : State := if s.pnc then { s with ocsp := .once s.now } else s

/-- What can happen.  `connected`: the connection is there (again), l.297-318 and `connected_callback`, l.1310-1334: the timers are not touched.
`days`: the days until the certificates expire. -/
inductive Op where
  | tick
  | accepted
  | connected
  | disconnected
  | management (b : Bool)
  | interval (n : Nat)
  | newV2g
  | days (client v2g : Int)
deriving DecidableEq, Repr

/-- One step. -/
def step (s : State) : Op → State × List Ev
  | .tick => tick s
  | .accepted => (accepted s, [])
  | .connected => (s, [])
  | .disconnected => (disconnected s, [])
  | .management b => (management s b, [])
  | .interval n => (interval s n, [])
  | .newV2g => (newV2g s, [])
  | .days c v =>
    ({ s with
       clientDays := c
       v2gDays := v }, [])

/-- A history. -/
def run (s : State) : List Op → State × List Ev
  | [] => (s, [])
  | o :: os => ((run (step s o).1 os).1, (step s o).2 ++ (run (step s o).1 os).2)

end Verif.Cert16
