import Verif.MessageQueue.Settled

/-!
# Functions of the API that wait for the answer of the CSMS

`dispatch_call_async` returns a future (Verif.MessageQueue); the functions below wait for it, mostly for at most 60 s
(`DEFAULT_WAIT_FOR_FUTURE_TIMEOUT`, constants.hpp l.29). `std::future_error` of a destroyed promise and exceptions of the
conversion of the payload that are not caught leave the function.

Simplifications: payloads are reduced to what the functions look at; the contents of the requests are left out.
-/

namespace Verif.Await

/-- Result of converting the payload of a CALLRESULT to the response type: the value, or the exception thrown
(`EnumConversionException`, types.hpp l.125; `json::exception`; any other, e.g. `StringConversionException`, string.hpp l.14). -/
inductive Parse (α : Type)
  | ok (a : α)
  | enumErr
  | jsonErr
  | otherErr
deriving DecidableEq, Repr

/-- What the waiting function finds: nothing within the time, a destroyed promise, or a message
(message_queue.hpp l.786-806: CALLRESULT, message type set; l.889-895, 911-917: CALLERROR, type unset; `offline`). -/
inductive Fut (α : Type)
  | pending
  | broken
  | result (p : Parse α)
  | callError
  | offline
deriving DecidableEq, Repr

/-- The answer of the CSMS, if a readable one has arrived. -/
def Fut.answer : Fut α → Option α
  | .result (.ok a) => some a
  | _ => none

/-- Exceptions that reach the caller. -/
inductive Exc
  | future   -- std::future_error (broken promise)
  | enum
  | json
  | other
  | unexpected   -- UnexpectedMessageTypeFromCSMS
deriving DecidableEq, Repr

/-- A returned value or an exception, and whether a CALLERROR was sent to the CSMS (in answer to its CALLRESULT). -/
structure Out (β : Type) where
  res : Except Exc β
  callError : Bool := false

/-- Status of a DataTransfer answer. -/
inductive DTStatus
  | accepted
  | rejected
  | unknownMessageId
  | unknownVendorId
deriving DecidableEq, Repr

structure DTResp where
  status : DTStatus
  data : Option String
deriving DecidableEq, Repr

/-- The response object before the answer is looked at (data_transfer.cpp l.46-47). -/
def DTResp.fallback : DTResp := ⟨.rejected, none⟩

/-- `DataTransfer::data_transfer_req` (lib/ocpp/v2/functional_blocks/data_transfer.cpp l.45-82). -/
def dataTransfer2 : Fut DTResp → Out (Option DTResp)
  | .pending => { res := .ok none }
  | .broken => { res := .error .future }
  | .offline => { res := .ok none }
  | .callError => { res := .ok (some .fallback) }
  | .result (.ok r) => { res := .ok (some r) }
  | .result .enumErr => { res := .ok none, callError := true }
  | .result .jsonErr => { res := .ok none, callError := true }
  | .result .otherErr => { res := .error .other }

/-- `ChargePointImpl::data_transfer` of 1.6 (lib/ocpp/v16/charge_point_impl.cpp l.4215-4256). The call has been handed to the
dispatcher before the connection is looked at. -/
def dataTransfer16 (connected : Bool) (f : Fut DTResp) : Out (Option DTResp) :=
  if !connected then { res := .ok none }
  else
    match f with
    | .pending => { res := .ok none }
    | .broken => { res := .error .future }
    | .offline => { res := .ok none }
    | .callError => { res := .ok (some .fallback) }
    | .result (.ok r) => { res := .ok (some r) }
    | .result .enumErr => { res := .error .enum }
    | .result .jsonErr => { res := .ok (some .fallback) }
    | .result .otherErr => { res := .error .other }

/-- Status of an Authorize answer of 2.x, as far as needed. -/
inductive AuthStatus
  | accepted
  | unknown
  | other (n : Nat)
deriving DecidableEq, Repr

/-- `Authorization::authorize_req` (lib/ocpp/v2/functional_blocks/authorization.cpp l.60-105). -/
def authorize2 (connected : Bool) (f : Fut AuthStatus) : Out AuthStatus :=
  if !connected then { res := .ok .unknown }
  else
    match f with
    | .pending => { res := .ok .unknown }
    | .broken => { res := .error .future }
    | .offline => { res := .ok .unknown }
    | .callError => { res := .ok .unknown }
    | .result (.ok r) => { res := .ok r }
    | .result .enumErr => { res := .ok .unknown, callError := true }
    | .result .jsonErr => { res := .error .json }
    | .result .otherErr => { res := .error .other }

/-- Status of Get15118EVCertificateResponse. -/
inductive EvStatus
  | accepted
  | failed
deriving DecidableEq, Repr

/-- `Security::on_get_15118_ev_certificate_request` (lib/ocpp/v2/functional_blocks/security.cpp l.69-108). `none`: a response
object whose status was never set. -/
def evCertificate2 (enabled : Bool) (f : Fut EvStatus) : Out (Option EvStatus) :=
  if !enabled then { res := .ok (some .failed) }
  else
    match f with
    | .pending => { res := .ok (some .failed) }
    | .broken => { res := .error .future }
    | .offline => { res := .ok (some .failed) }
    | .callError => { res := .ok (some .failed) }
    | .result (.ok r) => { res := .ok (some r) }
    | .result .enumErr => { res := .ok none, callError := true }
    | .result .jsonErr => { res := .error .json }
    | .result .otherErr => { res := .error .other }

/-- The functions made by `send_callback` (include/ocpp/v2/charge_point.hpp l.437-452), which the OCSP updater uses: there
is no limit on the waiting time. `none`: still waiting. -/
def sendCallback : Fut α → Option (Out α)
  | .pending => none
  | .broken => some { res := .error .future }
  | .offline => some { res := .error .unexpected }
  | .callError => some { res := .error .unexpected }
  | .result (.ok r) => some { res := .ok r }
  | .result .enumErr => some { res := .error .enum }
  | .result .jsonErr => some { res := .error .json }
  | .result .otherErr => some { res := .error .other }

/-- What `data_transfer_pnc_get_15118_ev_certificate` of 1.6 does (charge_point_impl.cpp l.3887-3943): the response given to
the callback, if any. `inner` is the conversion of the text in `data` to the response. -/
def evCertificate16 (pnc : Bool) (inner : String → Parse α) (f : Fut DTResp) : Out (Option α) :=
  if !pnc then { res := .ok none }
  else
    match f with
    | .broken => { res := .error .future }
    | .result (.ok r) =>
      match r.data with
      | some d =>
        if r.status = .accepted then
          match inner d with
          | .ok a => { res := .ok (some a) }
          | _ => { res := .ok none }
        else { res := .ok none }
      | none => { res := .ok none }
    | _ => { res := .ok none }

/-- The status and the OCSP result in a GetCertificateStatusResponse. -/
structure CertStatus where
  accepted : Bool
  ocsp : Option String
deriving DecidableEq, Repr

/-- `data_transfer_pnc_get_certificate_status` of 1.6 (charge_point_impl.cpp l.3945-4007): the OCSP result stored for the
certificate, if any. -/
def certStatus16 (inner : String → Parse CertStatus) (f : Fut DTResp) : Out (Option String) :=
  match f with
  | .broken => { res := .error .future }
  | .result (.ok r) =>
    match r.data with
    | some d =>
      match inner d with
      | .ok c => { res := .ok (if c.accepted then c.ocsp else none) }
      | _ => { res := .ok none }
    | none => { res := .ok none }
  | _ => { res := .ok none }

open Verif.MQ in
/-- What a waiting function finds for message `i` after a history of the queue: `p` is the payload of the answer, if it
comes to that. -/
def futureOf (tr : List Ev) (i : Nat) (p : Parse α) : Fut α :=
  if .answer i i ∈ tr then .result p
  else if .fulfil i true ∈ tr then .offline
  else if .fulfil i false ∈ tr then .callError
  else if .done i .evicted ∈ tr ∨ .done i .popped ∈ tr then .broken
  else .pending

end Verif.Await
