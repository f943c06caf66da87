import Verif.Display.Model
/-!
Model of `lib/ocpp/v2/functional_blocks/tariff_and_cost.cpp` (OCPP 2.x): what the application is told of costs and tariffs.

Costs, times and meter values are whole numbers (in the code a double, a `DateTime` and a float that is cut to a whole number).  Texts are
lists of bytes.  `customData` is what the code reads of it.  Of the prices in the custom data of `CostUpdated` only the state and the
triggers are modelled.  An exception out of a handler is the outcome `none`.
-/
namespace Verif.Tariff
open Verif.DM (Str splitString)
open Verif.Display (Content trim)

/-- The device model and the callbacks: `none`, a variable without (valid) value. -/
structure Config where
  availableTariff : Option Bool
  enabledTariff : Option Bool
  availableCost : Option Bool
  enabledCost : Option Bool
  qrCapable : Option Bool
  multiLanguage : Option Bool
  california : Option Bool
  /-- The values list of `DisplayMessageCtrlr.Language`. -/
  languages : Option Str
  decimals : Option Int
  currency : Option Str
  tariffCallback : Bool
  costCallback : Bool
deriving DecidableEq, Repr

/-- `is_tariff_enabled` (l.246-253). -/
def Config.tariff (c : Config) : Bool := c.availableTariff.getD false && c.enabledTariff.getD false

/-- `is_cost_enabled` (l.255-261). -/
def Config.cost (c : Config) : Bool := c.availableCost.getD false && c.enabledCost.getD false

/-- `RunningCostState` (include/ocpp/common/types.hpp l.411-415). -/
inductive CostState where
  | charging | idle | finished
deriving DecidableEq, Repr

/-- `RunningCost` (types.hpp l.422-438), without prices; `state = none`: the member was never assigned. -/
structure RunningCost where
  transaction : Str
  timestamp : Option Int := none
  meterValue : Option Int := none
  cost : Int
  state : Option CostState
  messages : Option (List Content) := none
  qrCode : Option Str := none
deriving DecidableEq, Repr

/-- What the application is told: a tariff message (`tariff_message_callback`), a running cost with the number of decimals and the currency
(`set_running_cost_callback`). -/
inductive Out where
  | tariff (transaction : Str) (messages : List Content)
  | running (r : RunningCost) (decimals : Int) (currency : Str)
deriving DecidableEq, Repr

/-- `SampledValue`; `register`: the measurand is there and is `Energy.Active.Import.Register`; `phase`: there is a phase. -/
structure Sample where
  measurandGiven : Bool
  register : Bool
  phase : Bool
  value : Int
deriving DecidableEq, Repr

/-- The parts of `TransactionEventRequest` that are read. -/
structure Event where
  transaction : Str
  ended : Bool
  timestamp : Int
  meterValues : Option (List (List Sample))
deriving DecidableEq, Repr

/-- The custom data of a response: a text that can be read or not. -/
structure Custom where
  /-- `qrCodeText`: absent, or what it is (`none` inside: not a string). -/
  qrCode : Option (Option Str) := none
  /-- `updatedPersonalMessageExtra`. -/
  extra : Option (List Content) := none
deriving DecidableEq, Repr

/-- The parts of `TransactionEventResponse` that are read. -/
structure Response where
  totalCost : Option Int := none
  personal : Option Content := none
  custom : Option Custom := none
deriving DecidableEq, Repr

/-- The value searched for in one meter value (l.86-88): the first of the import register without a phase. -/
def firstRegister : List Sample → Option Int
  | [] => none
  | s :: r => if (s.measurandGiven && s.register) && !s.phase then some s.value else firstRegister r

/-- One step of the loop of l.85-96. -/
def larger (m : Option Int) (v : Option Int) : Option Int :=
  match v with
  | none => m
  | some x =>
    match m with
    | none => some x
    | some y => if y < x then some x else some y

/-- l.82-100. -/
def meterValue (e : Event) : Option Int :=
  match e.meterValues with
  | none => none
  | some l => l.foldl (fun m samples => larger m (firstRegister samples)) none

/-- l.104-117: the QR code; `none`: it is no text (exception). -/
def qrCode (c : Config) (d : Custom) : Option (Option Str) :=
  match d.qrCode with
  | none => some none
  | some t => if c.qrCapable.getD false then t.map some else some none

/-- `supported_languages` (l.121-139). -/
def languages (c : Config) : List Str :=
  match c.languages with
  | none => []
  | some l => (splitString l).map trim

/-- The loop of l.141-164. -/
def extraMessages (supported : List Str) : List Content → List Content
  | [] => []
  | m :: r =>
    match m.language with
    | none => extraMessages supported r
    | some l =>
      if supported.isEmpty then []
      else if supported.contains l then m :: extraMessages supported r
      else extraMessages supported r

/-- l.119-165. -/
def extras (c : Config) (d : Custom) : List Content :=
  match d.extra with
  | none => []
  | some l => if c.multiLanguage.getD false then extraMessages (languages c) l else []

/-- The messages so far (l.46-50). -/
def personal (c : Config) (r : Response) : List Content :=
  match r.personal with
  | none => []
  | some m => if c.tariff then [m] else []

/-- The tariff message without cost (l.52-62). -/
def tariffPart (c : Config) (r : Response) (e : Event) : List Out :=
  if !(personal c r).isEmpty && !c.cost && c.tariffCallback then [.tariff e.transaction (personal c r)] else []

/-- `decimals` (l.172-177, l.223-227). -/
def decimals (c : Config) : Int := if c.decimals.getD 3 < 0 then 3 else c.decimals.getD 3

/-- l.168-170. -/
def messagesOf (c : Config) (l : List Content) : Option (List Content) := if c.tariff && !l.isEmpty then some l else none

/-- The running cost (l.66-170). -/
def runningCost (c : Config) (r : Response) (e : Event) (total : Int) (qr : Option Str) : RunningCost :=
  { transaction := e.transaction
    timestamp := some e.timestamp
    meterValue := meterValue e
    cost := total
    state := some (if e.ended then .finished else .charging)
    messages := messagesOf c (personal c r ++ (match r.custom with
      | none => []
      | some d => extras c d))
    qrCode := qr }

/-- The QR code of a response. -/
def qrOf (c : Config) (r : Response) : Option (Option Str) :=
  match r.custom with
  | none => some none
  | some d => qrCode c d

/-- The cost part (l.65-180): `get_value` of the currency throws if there is none. -/
def costPart (c : Config) (r : Response) (e : Event) : Option (List Out) :=
  match r.totalCost with
  | none => some []
  | some total =>
    if c.cost && c.costCallback then
      match qrOf c r, c.currency with
      | some qr, some cur => some [.running (runningCost c r e total qr) (decimals c) cur]
      | _, _ => none
    else some []

/-- `handle_cost_and_tariff` (l.37-181): what the application was told, and whether the handler returned. -/
def onResponse (c : Config) (r : Response) (e : Event) : List Out × Bool :=
  match costPart c r e with
  | none => (tariffPart c r e, false)
  | some os => (tariffPart c r e ++ os, true)

/-- `TransactionBlock::handle_transaction_event_response` (lib/ocpp/v2/functional_blocks/transaction.cpp l.267-…) after that: the id token
info of the response is looked at, for events that do not end the transaction. -/
def tokenLookedAt (c : Config) (r : Response) (e : Event) : Bool := (onResponse c r e).2 && !e.ended

/-! ## CostUpdated -/

/-- `TriggerMeterValue`. -/
structure Triggers where
  energy : Option Int := none
  power : Option Int := none
  time : Option Int := none
deriving DecidableEq, Repr

/-- The custom data of `CostUpdated`: `none`, it cannot be read (`from_json` throws). -/
structure CostCustom where
  state : Option CostState := none
  triggers : Option Triggers := none
deriving DecidableEq, Repr

structure CostRequest where
  transaction : Str
  totalCost : Int
  /-- Absent; or what could be read of it. -/
  custom : Option (Option CostCustom) := none
deriving DecidableEq, Repr

/-- What a request has done: told the application, answered, set the triggers of an EVSE. -/
inductive Act where
  | told (r : RunningCost) (decimals : Int) (currency : Str)
  | answered
  | triggers (evse : Nat) (t : Triggers)
  | threw
deriving DecidableEq, Repr

/-- l.196-212: the state and the triggers; `none`: exception. -/
def readCustom (c : Config) (q : CostRequest) : Option (Option CostState × Triggers) :=
  match q.custom with
  | none => some (some .charging, {})
  | some d =>
    if c.california.getD false then d.map (fun d => (d.state, d.triggers.getD {}))
    else some (some .charging, {})

/-- l.232-251; `evseOf` is `get_transaction_evseid`. -/
def setTriggers (evseOf : Str → Option Nat) (q : CostRequest) (t : Triggers) : List Act :=
  if t = {} then []
  else
    match evseOf q.transaction with
    | none => []
    | some e => [.triggers e t]

/-- l.183-251 from the running cost on. -/
def costUpdatedWith (c : Config) (evseOf : Str → Option Nat) (q : CostRequest) (state : Option CostState) (t : Triggers) : List Act :=
  match c.currency with
  | none => [.threw]
  | some cur => .told { transaction := q.transaction, cost := q.totalCost, state := state } (decimals c) cur :: .answered :: setTriggers evseOf q t

/-- `handle_costupdated_req` (l.183-244). -/
def costUpdated (c : Config) (evseOf : Str → Option Nat) (q : CostRequest) : List Act :=
  if !c.cost || !c.costCallback then [.answered]
  else
    match readCustom c q with
    | none => [.threw]
    | some (state, t) => costUpdatedWith c evseOf q state t

end Verif.Tariff
