/-!
Model of the OCSP updater of OCPP 2.x: `lib/ocpp/v2/ocsp_updater.cpp`, its use in `lib/ocpp/v2/charge_point.cpp` (l.63-74, l.163-164),
`lib/ocpp/v2/functional_blocks/provisioning.cpp` (l.208) and `lib/ocpp/v2/functional_blocks/security.cpp` (l.253-261).

There are three threads: the updater's own, the one that reads the messages of the CSMS (it calls `start` and `trigger`), and one of the
application (it calls `stop`).  The updater holds the mutex all the time but while it waits on the condition variable; a step of the
model is what happens between two points where a thread can be suspended.  A thread that finds the mutex locked is recorded as blocked and
goes on as soon as the updater waits again; that the updater could get the mutex before it a second time is not modelled.
Certificates and OCSP results are numbers; times are numbers (of the steady clock).
-/
namespace Verif.Ocsp

abbrev Cert := Nat
abbrev Result := Nat

/-- What becomes of a `GetCertificateStatus` request (charge_point.cpp l.63-74 and charge_point.hpp l.440-453). -/
inductive Answer where
  /-- `Accepted` with an `ocspResult`. -/
  | accepted (r : Result)
  /-- `Accepted` without one. -/
  | empty
  /-- `Failed`. -/
  | failed
  /-- Any other message type: a call error, a timeout of the message queue, offline.  It is turned into `Failed` (l.68-73). -/
  | other
  /-- A result that cannot be converted to a `GetCertificateStatusResponse`, such as one with an unknown status: the conversion throws an
  exception that is no `UnexpectedMessageTypeFromCSMS` (charge_point.hpp l.450). -/
  | malformed
deriving DecidableEq, Repr

/-- What can be observed. -/
inductive Ev where
  /-- An update begins, with the certificates that `get_v2g_ocsp_request_data` returned. -/
  | start (t : Nat) (certs : List Cert)
  /-- A request is sent. -/
  | ask (c : Cert)
  /-- The result that came back for a certificate. -/
  | got (c : Cert) (r : Result)
  /-- `update_ocsp_cache`. -/
  | store (c : Cert) (r : Result)
  /-- The update is complete. -/
  | done (t : Nat)
  /-- The update failed. -/
  | failed (t : Nat)
  /-- `std::terminate`. -/
  | terminated
  /-- `trigger_ocsp_cache_update` took effect. -/
  | triggered (t : Nat)
deriving DecidableEq, Repr

/-- Where the updater's thread is. -/
inductive Phase where
  /-- There is no thread. -/
  | none
  /-- In `wait_until` (l.65), without the mutex. -/
  | waiting
  /-- In `get_cert_status_from_csms` (l.122) for `c`, with the mutex; `got`: results so far, `rest`: certificates to come. -/
  | asking (got : List (Cert × Result)) (c : Cert) (rest : List Cert)
deriving DecidableEq, Repr

/-- A call of the thread that reads messages. -/
inductive Call where
  | start
  | trigger
deriving DecidableEq, Repr

/-- The updater with the threads around it. -/
structure State where
  now : Nat := 0
  running : Bool := false
  /-- `update_deadline`: the time of construction to begin with (l.22). -/
  deadline : Nat := 0
  phase : Phase := .none
  /-- The thread that reads messages waits for the mutex in this call. -/
  reader : Option Call := none
  /-- The application waits for the mutex in `stop`. -/
  stopper : Bool := false
  /-- What `get_v2g_ocsp_request_data` would return. -/
  certs : List Cert := []
  /-- `std::terminate` was called. -/
  dead : Bool := false
deriving DecidableEq, Repr

/-- The intervals of the constructor (ocsp_updater.hpp: 167 and 24 hours by default). -/
structure Times where
  interval : Nat
  retry : Nat

/-- `stop` (l.36-46) with the mutex free: the thread is woken, sees that `running` is false and ends (l.67-69), and is joined. -/
def stopNow (s : State) : State :=
  if s.running then { s with running := false, phase := .none } else s

/-- `start` (l.28-34): a new thread is assigned; if the old one was not joined, the assignment terminates the process. -/
def startNow (s : State) : State × List Ev :=
  match s.phase with
  | .none => ({ s with running := true, phase := .waiting }, [])
  | _ => ({ s with running := true, dead := true }, [.terminated])

/-- `trigger_ocsp_cache_update` (l.48-57); without a running updater it throws (and nothing happens here). -/
def triggerNow (s : State) : State × List Ev :=
  if s.running then ({ s with deadline := s.now }, [.triggered s.now]) else (s, [])

/-- The call of the reading thread, with the mutex free. -/
def callNow (s : State) : Call → State × List Ev
  | .start => startNow s
  | .trigger => triggerNow s

/-- The mutex is free: the blocked threads go on, first the reading one. -/
def release (s : State) : State × List Ev :=
  let (s1, es) := match s.reader with
    | none => (s, [])
    | some k => callNow { s with reader := none } k
  (if s1.stopper then stopNow { s1 with stopper := false } else s1, es)

/-- The end of an update: the new deadline (l.79, l.85, l.93), then `wait_until` frees the mutex. -/
def finish (s : State) (wait : Nat) : State × List Ev :=
  release { s with deadline := s.now + wait, phase := .waiting }

/-- The loop of `execute_ocsp_update` (l.104-146) from the next certificate on: ask for it, or store all the results. -/
def next (T : Times) (s : State) (got : List (Cert × Result)) : List Cert → State × List Ev
  | [] =>
    let (s1, es) := finish s T.interval
    (s1, got.map (fun p => .store p.1 p.2) ++ .done s.now :: es)
  | c :: rest => ({ s with phase := .asking got c rest }, [.ask c])

/-- The updater's thread returns from `wait_until` (spuriously, notified or after the deadline), l.62-77. -/
def wake (T : Times) (s : State) : State × List Ev :=
  match s.phase with
  | .waiting =>
    if s.now ≤ s.deadline then (s, [])
    else
      let (s1, es) := next T s [] s.certs
      (s1, .start s.now s.certs :: es)
  | _ => (s, [])

/-- An update failed: it is tried again later (l.80-94). -/
def failedUpdate (T : Times) (s : State) : State × List Ev :=
  let (s1, es) := finish s T.retry
  (s1, .failed s.now :: es)

/-- The request for `c` is answered (l.122-142). -/
def answered (T : Times) (s : State) (got : List (Cert × Result)) (c : Cert) (rest : List Cert) : Answer → State × List Ev
  | .accepted r =>
    let (s1, es) := next T s (got ++ [(c, r)]) rest
    (s1, .got c r :: es)
  | .malformed => ({ s with dead := true }, [.terminated])
  | _ => failedUpdate T s

/-- What can happen. -/
inductive Op where
  | tick (n : Nat)
  | setCerts (l : List Cert)
  /-- The accepted `BootNotification` response is read. -/
  | start
  /-- A `CertificateSigned` request with a V2G certificate is read and its certificate installed. -/
  | trigger
  /-- The application stops the station. -/
  | stop
  | wake
  /-- The CSMS answers the outstanding request. -/
  | answer (a : Answer)
  /-- The outstanding request times out in the message queue, or the connection is lost. -/
  | timeout
deriving DecidableEq, Repr

/-- The reading thread calls: it waits if the updater has the mutex. -/
def call (s : State) (k : Call) : State × List Ev :=
  match s.phase with
  | .asking .. => ({ s with reader := some k }, [])
  | _ => callNow s k

/-- The answer of the CSMS: it is only read if the reading thread is not blocked. -/
def answer (T : Times) (s : State) (a : Answer) : State × List Ev :=
  match s.phase, s.reader with
  | .asking got c rest, none => answered T s got c rest a
  | _, _ => (s, [])

/-- The message queue gives up the request: its own thread does that. -/
def timeout (T : Times) (s : State) : State × List Ev :=
  match s.phase with
  | .asking got c rest => answered T s got c rest .other
  | _ => (s, [])

/-- `stop` of the application: it waits if the updater has the mutex. -/
def stop (s : State) : State :=
  match s.phase with
  | .asking .. => { s with stopper := true }
  | _ => stopNow s

/-- One step; nothing happens any more after `std::terminate`, and the reading thread reads nothing while it is blocked. -/
def step (T : Times) (s : State) (o : Op) : State × List Ev :=
  if s.dead then (s, [])
  else
    match o with
    | .tick n => ({ s with now := s.now + n }, [])
    | .setCerts l => ({ s with certs := l }, [])
    | .start => if s.reader.isSome then (s, []) else call s .start
    | .trigger => if s.reader.isSome then (s, []) else call s .trigger
    | .stop => (stop s, [])
    | .wake => wake T s
    | .answer a => answer T s a
    | .timeout => timeout T s

/-- A history. -/
def run (T : Times) (s : State) : List Op → State × List Ev
  | [] => (s, [])
  | o :: os => ((run T (step T s o).1 os).1, (step T s o).2 ++ (run T (step T s o).1 os).2)

end Verif.Ocsp
