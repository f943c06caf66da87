/-! Firmware updates of OCPP 2.x: `lib/ocpp/v2/functional_blocks/firmware_update.cpp`.
What happens to the connectors is modelled in `Verif/Avail/Model.lean` (`firmwarePrepare`, `firmwareRestore`); here it is only told when.
Not modelled: the texts of the messages and of the security events. -/

namespace Verif.Fw2

/-- `FirmwareStatusEnum` (include/ocpp/v2/ocpp_enums.hpp). -/
inductive Status
  | downloaded
  | downloadFailed
  | downloading
  | downloadScheduled
  | downloadPaused
  | idle
  | installationFailed
  | installing
  | installed
  | installRebooting
  | installScheduled
  | installVerificationFailed
  | invalidSignature
  | signatureVerified
  deriving DecidableEq, Repr

/-- `UpdateFirmwareStatusEnum`. -/
inductive Answer
  | accepted
  | rejected
  | acceptedCanceled
  | invalidCertificate
  | revokedCertificate
  deriving DecidableEq, Repr

inductive Event
  | updated                        -- FIRMWARE_UPDATED
  | invalidSignature               -- INVALIDFIRMWARESIGNATURE
  | invalidCertificate             -- INVALIDFIRMWARESIGNINGCERTIFICATE
  deriving DecidableEq, Repr

/-- What can be observed. -/
inductive Out
  | note (s : Status) (id : Option Int)        -- FirmwareStatusNotification
  | triggered (s : Status) (id : Option Int)   -- FirmwareStatusNotification that was triggered
  | event (e : Event)                          -- a security event
  | restore                                    -- all connectors get back their stored status
  | prepare                                    -- the connectors become unavailable
  | asked                                      -- the application is told of the update
  | answer (a : Answer)                        -- UpdateFirmware.conf
  deriving DecidableEq, Repr

/-- The members of `FirmwareUpdate` (include/ocpp/v2/functional_blocks/firmware_update.hpp l.36-43). -/
structure State where
  status : Status := .idle
  id : Option Int := none
  before : Status := .signatureVerified
  deriving DecidableEq, Repr

/-- `firmware_status_end_states` (l.20-23). -/
def endStates : List Status := [.downloadFailed, .installationFailed, .installed, .installVerificationFailed, .invalidSignature]

/-- "already sent, do not send again" (l.47-53). -/
def alreadySent (s : State) (id : Int) (st : Status) : Bool := decide (s.status = st) && (decide (id = -1) || decide (s.id = some id))

/-- The request id of the message (l.60-63). -/
def requestId (id : Int) : Option Int := if id ≠ -1 then some id else none

/-- The security event of a status (l.68-81). -/
def statusEvent (st : Status) : List Out :=
  if st = .installed then [.event .updated] else if st = .invalidSignature then [.event .invalidSignature] else []

/-- The connectors are restored (l.83-87). -/
def ending (st : Status) : List Out := if st ∈ endStates then [.restore] else []

/-- Before the installation (l.89-100); `active`: a transaction is active somewhere. -/
def installing (s : State) (id : Int) (st : Status) (active : Bool) : List Out :=
  if s.before = st then (if active then [.note .installScheduled (requestId id)] else []) ++ [.prepare] else []

/-- `on_firmware_update_status_notification` (l.45-101). -/
def report (s : State) (id : Int) (st : Status) (active : Bool) : State × List Out :=
  if alreadySent s id st then (s, [])
  else
    ({ s with
       status := if s.before = st ∧ active = true then .installScheduled else st
       id := if id ≠ -1 then some id else s.id },
     .note st (requestId id) :: statusEvent st ++ ending st ++ installing s id st active)

/-- `on_firmware_status_notification_request` (l.103-118). -/
def trigger (s : State) : Out := if s.status = .idle ∨ s.status = .installed then .triggered .idle none else .triggered s.status s.id

/-- UpdateFirmware.req: whether there is a certificate and a signature, whether the certificate is valid, and the answer of the application. -/
structure Request where
  certificate : Bool
  signature : Bool
  valid : Bool
  app : Answer
  deriving DecidableEq, Repr

/-- The answer (l.129-147). -/
def answerOf (r : Request) : List Out × Answer := if r.certificate && !r.valid then ([], .invalidCertificate) else ([.asked], r.app)

/-- `handle_firmware_update_req` (l.120-157). -/
def update (s : State) (r : Request) : State × List Out :=
  ({ s with before := if r.certificate || r.signature then .signatureVerified else .downloaded },
   (answerOf r).1 ++ .answer (answerOf r).2 ::
     (if (answerOf r).2 = .invalidCertificate ∨ (answerOf r).2 = .revokedCertificate then [.event .invalidCertificate] else []))

inductive Op
  | report (id : Int) (st : Status) (active : Bool)
  | trigger
  | update (r : Request)
  deriving DecidableEq, Repr

def step (s : State) : Op → State × List Out
  | .report id st active => report s id st active
  | .trigger => (s, [trigger s])
  | .update r => update s r

/-- The state and what was observed, after a history. -/
def run (s : State) : List Op → State × List Out
  | [] => (s, [])
  | o :: os => ((run (step s o).1 os).1, (step s o).2 ++ (run (step s o).1 os).2)

end Verif.Fw2
