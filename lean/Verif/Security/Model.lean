/-!
# Certificate signing requests and installation of certificates in OCPP 2.x

Models lib/ocpp/v2/functional_blocks/security.cpp. Simplifications: the messages sent and the timers set are the log; whether
the configuration is complete and the CSR can be generated is a parameter of the operation; `csr_attempt` does not overflow; the
backoff is calculated in `double` there, which is exact for these products up to the clamping to `int`.
-/

namespace Verif.Sec

/-- `ocpp::CertificateSigningUseEnum`, as used in SignCertificate of 2.x. -/
inductive Use
  | chargingStation | v2g
deriving DecidableEq, Repr

/-- The variables CertSigningWaitMinimum and CertSigningRepeatTimes (security.cpp l.302-305). -/
structure Cfg where
  wait : Option Int
  times : Option Int
deriving DecidableEq, Repr

/-- What happens. `sent` is a SignCertificate.req, `again` the end of the waiting time and the SignCertificate.req sent then (none if
the CSR could not be generated), `signed` a CertificateSigned.req received, `refused` an answer Rejected to SignCertificate.req,
`gaveUp` the end of the repetitions, `timer` the setting of the timer to `s` seconds. -/
inductive Ev
  | sent (u : Use)
  | again (u : Option Use)
  | signed
  | refused
  | gaveUp
  | timer (s : Int) (wait : Int)
deriving DecidableEq, Repr

/-- `awaited_certificate_signing_use_enum`, `csr_attempt`, `certificate_signed_timer` (security.hpp), the number of
SignCertificate.req without an answer, and whether `std::bad_optional_access` left the callback of the timer. -/
structure State where
  awaited : Option Use := none
  attempt : Nat := 1
  armed : Bool := false
  open_ : Nat := 0
  crashed : Bool := false
  log : List Ev := []
deriving DecidableEq, Repr

/-- `sign_certificate_req` (security.cpp l.157-231); `ok`: the names are configured and the CSR could be generated. Also
whether a request was sent. -/
def sign (s : State) (u : Use) (ok : Bool) : State × Bool :=
  if s.awaited.isSome then (s, false)
  else if !ok then (s, false)
  else ({ s with awaited := some u, open_ := s.open_ + 1 }, true)

/-- A request for another reason than the timer. -/
def trigger (s : State) (u : Use) (ok : Bool) : State :=
  let r := sign s u ok
  if r.2 then { r.1 with log := r.1.log ++ [.sent u] } else r.1

/-- `clamp_to<int>` (include/ocpp/common/utils.hpp) of a product that is at least 0. -/
def clampInt (x : Int) : Int := if x ≤ 2147483647 then x else 2147483647

/-- Backoff (security.cpp l.323-325); `minimum_cert_signing_wait_time_seconds = 250` (l.22). -/
def backoff (wait : Int) (attempt : Nat) : Int := clampInt (max 250 wait * 2 ^ attempt)

/-- `handle_sign_certificate_response`, answer Accepted (security.cpp l.293-335). -/
def accepted (s : State) (c : Cfg) : State :=
  if s.awaited.isNone then s
  else match c.wait, c.times with
    | some w, some n =>
      if (s.attempt : Int) > n then { s with attempt := 1, armed := false, awaited := none, log := s.log ++ [.gaveUp] }
      else { s with armed := true, log := s.log ++ [.timer (backoff w s.attempt) w] }
    | _, _ => s

/-- `handle_sign_certificate_response`, another answer (security.cpp l.293-298, 336-340). -/
def refused (s : State) : State :=
  if s.awaited.isNone then s
  else { s with awaited := none, attempt := 1, log := s.log ++ [.refused] }

/-- The first lines of `handle_certificate_signed_req` (security.cpp l.233-237). -/
def signed (s : State) : State :=
  { s with attempt := 1, awaited := none, armed := false, log := s.log ++ [.signed] }

/-- The callback of the timer (security.cpp l.327-334): `awaited_….value()` throws if there is no value. -/
def fire (s : State) (ok : Bool) : State :=
  match s.awaited with
  | none => { s with armed := false, attempt := s.attempt + 1, crashed := true, log := s.log ++ [.again none] }
  | some u =>
    let r := sign { s with armed := false, attempt := s.attempt + 1, awaited := none } u ok
    { r.1 with log := r.1.log ++ [.again (if r.2 then some u else none)] }

/-- Operations. `trigger`: TriggerMessage or a check of the expiration. `answer` and `lost` need a request without an answer
(message queue); `lost` is a CALLERROR, or no answer in time. -/
inductive Op
  | trigger (u : Use) (ok : Bool)
  | accept (c : Cfg)
  | refuse
  | lost
  | certificateSigned
  | fire (ok : Bool)
deriving DecidableEq, Repr

/-- One step. Nothing happens after a crash. CALLERRORs for SignCertificate are not handled (charge_point.cpp l.640-881). -/
def step (s : State) (o : Op) : State :=
  if s.crashed then s
  else match o with
    | .trigger u ok => trigger s u ok
    | .accept c => if s.open_ = 0 then s else accepted { s with open_ := s.open_ - 1 } c
    | .refuse => if s.open_ = 0 then s else refused { s with open_ := s.open_ - 1 }
    | .lost => if s.open_ = 0 then s else { s with open_ := s.open_ - 1 }
    | .certificateSigned => signed s
    | .fire ok => if s.armed then fire s ok else s

/-- A history from the start of the station. -/
def run (s : State) (ops : List Op) : State := ops.foldl step s

/-! ## InstallCertificate -/

/-- `InstallCertificateUseEnum`. -/
inductive CertType
  | csmsRoot | manufacturerRoot | moRoot | v2gRoot | oemRoot
deriving DecidableEq, Repr

/-- SecurityProfile, AllowCSMSRootCertInstallWithUnsecureConnection, AllowMFRootCertInstallWithUnsecureConnection. -/
structure Policy where
  profile : Int
  csms : Option Bool
  mf : Option Bool
deriving DecidableEq, Repr

/-- `should_allow_certificate_install` (security.cpp l.433-458). -/
def mayInstall (p : Policy) (t : CertType) : Bool :=
  if p.profile > 1 then true
  else match t with
    | .csmsRoot => p.csms.getD true
    | .manufacturerRoot => p.mf.getD true
    | .moRoot | .v2gRoot => true
    | .oemRoot => false

/-- `InstallCertificateStatusEnum`. -/
inductive InstallStatus
  | accepted | rejected | failed
deriving DecidableEq, Repr

/-- Effects of InstallCertificate: the call of the security module, the security event, the answer (with the reason). -/
inductive InstallEv
  | install (t : CertType)
  | event
  | answer (st : InstallStatus) (unsecure : Bool)
deriving DecidableEq, Repr

/-- `handle_install_certificate_req` (security.cpp l.381-407); `r` is the result of `install_ca_certificate`. -/
def install (p : Policy) (t : CertType) (r : InstallStatus) : List InstallEv :=
  if !mayInstall p t then [.answer .rejected true]
  else [.install t] ++ (if r = .accepted then [.event] else []) ++ [.answer r false]

end Verif.Sec
