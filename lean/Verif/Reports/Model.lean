/-
Model of the splitting of reports into messages: `lib/ocpp/v2/notify_report_requests_splitter.cpp`,
`notify_report_req` of `lib/ocpp/v2/functional_blocks/provisioning.cpp`, and `notify_monitoring_report_req`,
`notify_customer_information_req` and `handle_customer_information_req` of
`lib/ocpp/v2/functional_blocks/diagnostics.cpp`.

Texts are lists of characters (bytes).  A report entry is the text it is serialised to.
-/
namespace Verif.Rep

abbrev Text := List Char

/-! ### Splitting of NotifyReport -/

/-- The decimal digits of a number, by recursion on fuel. -/
def natTextAux : Nat → Nat → Text
  | 0, _ => []
  | fuel + 1, n =>
    if n < 10 then [Char.ofNat (48 + n)] else natTextAux fuel (n / 10) ++ [Char.ofNat (48 + n % 10)]

/-- The decimal digits of a number, as `json::dump` writes them. -/
def natText (n : Nat) : Text := natTextAux (n + 1) n

/-- `json::dump` of a truth value. -/
def boolText (b : Bool) : Text := if b then "true".toList else "false".toList

/-- Texts with commas in between. -/
def commaSep : List Text → Text
  | [] => []
  | [x] => x
  | x :: y :: r => x ++ ',' :: commaSep (y :: r)

/-- `json::dump` of an array. -/
def arrayText (items : List Text) : Text := '[' :: commaSep items ++ "]".toList

/-- A NotifyReport message. -/
structure Payload where
  id : Text
  seqNo : Nat
  tbc : Bool
  items : List Text
deriving DecidableEq, Repr

/-- The part of the message that is the same for all: `generatedAt` and `requestId` as texts. -/
structure Req where
  generatedAt : Text
  requestId : Text
deriving DecidableEq, Repr

/-- `json::dump` of `[2,"id","NotifyReport",{...}]` (`create_next_payload` l.71-89); the members of an object
are sorted by name. -/
def render (q : Req) (p : Payload) : Text :=
  "[2,\"".toList ++ p.id ++ "\",\"NotifyReport\",{\"generatedAt\":\"".toList ++ q.generatedAt ++
  "\",\"reportData\":".toList ++ arrayText p.items ++ ",\"requestId\":".toList ++ q.requestId ++
  ",\"seqNo\":".toList ++ natText p.seqNo ++ ",\"tbc\":".toList ++ boolText p.tbc ++ "}]".toList

/-- `create_request_template_json_and_return_skeleton_size` (l.98-110): the length of
`[2,"","NotifyReport",{"generatedAt":"..","requestId":..,"seqNo":0,"tbc":false}]` plus that of
`,"reportData":`. -/
def skeletonSize (q : Req) : Nat :=
  ("[2,\"".toList ++ "\",\"NotifyReport\",{\"generatedAt\":\"".toList ++ q.generatedAt ++
   "\",\"requestId\":".toList ++ q.requestId ++ ",\"seqNo\":".toList ++ natText 0 ++
   ",\"tbc\":".toList ++ boolText false ++ "}]".toList).length + ",\"reportData\":".toList.length

/-- The loop of `create_next_report_data_json` (l.56-66): take entries while they fit. -/
def grow (remaining : Nat) : Nat → List Text → List Text × List Text
  | _, [] => ([], [])
  | size, x :: r =>
    if size + (x.length + 1) ≤ remaining then
      (x :: (grow remaining (size + (x.length + 1)) r).1, (grow remaining (size + (x.length + 1)) r).2)
    else ([], x :: r)

/-- `create_next_report_data_json` (l.40-69): the entries of the next message and the rest. -/
def nextItems (remaining : Nat) : List Text → List Text × List Text
  | [] => ([], [])
  | [x] => ([x], [])
  | x :: y :: r =>
    (x :: (grow remaining (arrayText [x]).length (y :: r)).1, (grow remaining (arrayText [x]).length (y :: r)).2)

/-- `create_next_payload` (l.71-89): `remaining_size` is 0 if the skeleton alone is too large. -/
def nextPayload (q : Req) (maxSize : Nat) (id : Text) (seq : Nat) (items : List Text) : Payload × List Text :=
  let n := nextItems (maxSize - (skeletonSize q + id.length)) items
  (⟨id, seq, decide (n.2 ≠ []), n.1⟩, n.2)

/-- The loop of `create_call_payloads` (l.25-30); `ids` are the generated message ids.  Every round takes an
entry, so the number of entries plus one is enough fuel (`C40_complete` shows that nothing is left). -/
def payloadsFrom (q : Req) (maxSize : Nat) (ids : Nat → Text) : Nat → Nat → List Text → List Payload
  | 0, _, _ => []
  | fuel + 1, seq, items =>
    if seq = 0 ∨ items ≠ [] then
      (nextPayload q maxSize (ids seq) seq items).1 ::
        payloadsFrom q maxSize ids fuel (seq + 1) (nextPayload q maxSize (ids seq) seq items).2
    else []

/-- `notify_report_req` (`provisioning.cpp` l.149-170): at most one entry is sent without splitting. -/
def notifyReport (q : Req) (maxSize : Nat) (ids : Nat → Text) (items : List Text) : List Payload :=
  if items.length ≤ 1 then [⟨ids 0, 0, false, items⟩]
  else payloadsFrom q maxSize ids (items.length + 1) 0 items

/-! ### NotifyMonitoringReport -/

/-- A part of a report. -/
structure Part (α : Type) where
  seqNo : Nat
  tbc : Bool
  items : List α
deriving DecidableEq, Repr

/-- The inner loop (`diagnostics.cpp` l.159-161): `for (j = i; j < 10 and j < size; ++j)` takes element
`i + j`. -/
def subData {α} (data : List α) (i : Nat) : List α :=
  ((List.range (min 10 data.length)).filter (fun j => decide (i ≤ j))).filterMap (fun j => data[i + j]?)

/-- `notify_monitoring_report_req` (`diagnostics.cpp` l.118-171): the outer loop runs for
`i = 0, 10, 20, ...` below the size. -/
def monitoringReport {α} (data : List α) : List (Part α) :=
  if data.length ≤ 10 then [⟨0, false, data⟩]
  else (List.range ((data.length + 9) / 10)).map fun k =>
    ⟨k, !decide (k * 10 + 10 ≥ data.length), subData data (k * 10)⟩

/-! ### Customer information -/

/-- A NotifyCustomerInformation message. -/
structure Chunk where
  seqNo : Nat
  tbc : Bool
  data : Text
deriving DecidableEq, Repr

/-- The loop of `notify_customer_information_req` (`diagnostics.cpp` l.96-116), from position `pos`.  Every
round but one for an empty text moves on by 512. -/
def chunksFrom (data : Text) : Nat → Nat → Nat → List Chunk
  | 0, _, _ => []
  | fuel + 1, pos, seq =>
    if pos < data.length ∨ (pos = 0 ∧ data = []) then
      ⟨seq, decide (data.length - pos > 512), (data.drop pos).take 512⟩ ::
        chunksFrom data fuel (pos + 512) (seq + 1)
    else []

def customerChunks (data : Text) : List Chunk := chunksFrom data (data.length + 1) 0 0

inductive CStatus | accepted | rejected | invalid
deriving DecidableEq, Repr

/-- The request, as far as it decides what is sent. -/
structure CReq where
  report : Bool
  clear : Bool
  /-- One of `customerCertificate`, `idToken`, `customerIdentifier` is given. -/
  identified : Bool
deriving DecidableEq, Repr

/-- `handle_customer_information_req` (`diagnostics.cpp` l.180-220): answer, messages, and whether the
information is cleared.  `info` is the text of `get_customer_information`, `maxLen` the configured length
(compared as `size_t`, so a negative one never crops). -/
def customerInformation (r : CReq) (maxLen : Int) (info : Text) : CStatus × List Chunk × Bool :=
  let status := if r.identified = false then CStatus.invalid
    else if r.report = false ∧ r.clear = false then .rejected else .accepted
  if status = .accepted then
    let data := if r.report then info else []
    let data := if 0 ≤ maxLen ∧ data.length > maxLen.toNat then data.take maxLen.toNat else data
    (status, customerChunks data, r.clear)
  else (status, [], false)

end Verif.Rep
