import Verif.DeviceModel.Model
/-!
Model of the display messages of OCPP 2.x, `lib/ocpp/v2/functional_blocks/display_message.cpp`.

Texts are lists of bytes (`Char`), times are numbers, the component of a display is a text.  What the application's callbacks do is a
parameter: they return what the environment chose.  An exception out of a handler is the outcome `threw`; who catches it is modelled in
`Verif.Recv`.
-/
namespace Verif.Display
open Verif.DM (Str splitString)

/-- `MessagePriorityEnum` (include/ocpp/v2/ocpp_enums.hpp). -/
inductive Priority where
  | alwaysFront | inFront | normalCycle
deriving DecidableEq, Repr

/-- `MessageFormatEnum`. -/
inductive Format where
  | ascii | html | uri | utf8 | qrcode
deriving DecidableEq, Repr

/-- `MessageStateEnum`. -/
inductive MState where
  | charging | faulted | idle | unavailable | suspended | discharging
deriving DecidableEq, Repr

/-- `message_priority_enum_to_string` (lib/ocpp/v2/ocpp_enums.cpp l.1696-1706). -/
def Priority.text : Priority → Str
  | .alwaysFront => "AlwaysFront".toList
  | .inFront => "InFront".toList
  | .normalCycle => "NormalCycle".toList

/-- `message_format_enum_to_string` (lib/ocpp/v2/ocpp_enums.cpp l.151-165). -/
def Format.text : Format → Str
  | .ascii => "ASCII".toList
  | .html => "HTML".toList
  | .uri => "URI".toList
  | .utf8 => "UTF8".toList
  | .qrcode => "QRCODE".toList

/-- `message_state_enum_to_string` (lib/ocpp/v2/ocpp_enums.cpp l.1731-1746). -/
def MState.text : MState → Str
  | .charging => "Charging".toList
  | .faulted => "Faulted".toList
  | .idle => "Idle".toList
  | .unavailable => "Unavailable".toList
  | .suspended => "Suspended".toList
  | .discharging => "Discharging".toList

/-- `MessageContent` (include/ocpp/v2/ocpp_types.hpp l.100-105); `customData` is left out. -/
structure Content where
  format : Format
  content : Str
  language : Option Str
deriving DecidableEq, Repr

/-- `MessageInfo` (include/ocpp/v2/ocpp_types.hpp l.1130-1141); `customData` is left out. -/
structure Info where
  id : Int
  priority : Priority
  message : Content
  display : Option Str := none
  state : Option MState := none
  start : Option Int := none
  stop : Option Int := none
  transaction : Option Str := none
  extra : Option (List Content) := none
deriving DecidableEq, Repr

/-- `IdentifierType` (include/ocpp/common/types.hpp l.369-373). -/
inductive IdentifierType where
  | sessionId | idToken | transactionId
deriving DecidableEq, Repr

/-- `DisplayMessage` with its `DisplayMessageContent` (include/ocpp/common/types.hpp l.357-392). -/
structure Message where
  id : Option Int := none
  priority : Option Priority := none
  state : Option MState := none
  start : Option Int := none
  stop : Option Int := none
  identifier : Option Str := none
  identifierType : Option IdentifierType := none
  text : Str
  language : Option Str := none
  format : Option Format := none
  qrCode : Option Str := none
deriving DecidableEq, Repr

/-- `message_info_to_display_message` with `message_content_to_display_message_content` (l.162-168, l.211-224). -/
def toMessage (i : Info) : Message :=
  { id := some i.id
    priority := some i.priority
    state := i.state
    start := i.start
    stop := i.stop
    identifier := i.transaction
    identifierType := some .transactionId
    text := i.message.content
    language := i.message.language
    format := some i.message.format }

/-- Assignment of a text to a `CiString<n>`: `true` if it does not throw (include/ocpp/common/string.hpp l.46-66). -/
def fits (n : Nat) (t : Str) : Bool := decide (t.length ≤ n)

/-- The same of an optional text. -/
def fitsOpt (n : Nat) : Option Str → Bool
  | none => true
  | some t => fits n t

/-- What becomes of a message of the application. -/
inductive Converted where
  | left
  | threw
  | info (i : Info)
deriving DecidableEq, Repr

/-- The assignments of `display_message_to_message_info_type` (l.188-203): the text has at most 1024 bytes, the language 8, the
transaction id 36, else the assignment throws. -/
def infoOf (m : Message) (id : Int) (p : Priority) : Converted :=
  if fits 1024 m.text && fitsOpt 8 m.language && fitsOpt 36 m.identifier then
    .info
      { id := id
        priority := p
        message := { format := m.format.getD .utf8, content := m.text, language := m.language }
        state := m.state
        start := m.start
        stop := m.stop
        transaction := m.identifier }
  else .threw

/-- `display_message_to_message_info_type` (l.175-204). -/
def toInfo (m : Message) : Converted :=
  match m.id, m.priority with
  | some id, some p => infoOf m id p
  | _, _ => .left

/-- The loop of l.50-55; `none` if one of the conversions throws. -/
def convertAll : List Message → Option (List Info)
  | [] => some []
  | m :: r =>
    match toInfo m with
    | .left => convertAll r
    | .threw => none
    | .info i => (convertAll r).map (i :: ·)

/-- What the station sends in answer to `GetDisplayMessages`: the answer (accepted or unknown) and the notification. -/
inductive Out where
  | answer (accepted : Bool)
  | notify (requestId : Int) (infos : List Info)
deriving DecidableEq, Repr

/-- What `handle_get_display_message` sends after the conversion (l.57-73). -/
def getAnswer (requestId : Int) (infos : List Info) : List Out :=
  if infos.isEmpty then [.answer false] else [.answer true, .notify requestId infos]

/-- `handle_get_display_message` (l.40-74); `messages` is what the application returned, `none`: an exception, nothing was sent. -/
def getMessages (requestId : Int) (messages : List Message) : Option (List Out) :=
  (convertAll messages).map (getAnswer requestId)

/-- The variables of the device model that are read: `none` if there is no (valid) value. -/
structure Config where
  available : Option Bool
  priorities : Option Str
  formats : Option Str
  states : Option Str
deriving DecidableEq, Repr

/-- `std::string::find_first_not_of(' ')` and `substr` from there. -/
def dropSpaces : Str → Str
  | [] => []
  | c :: r => if c = ' ' then dropSpaces r else c :: r

/-- `trim_string` (lib/ocpp/common/utils.cpp l.96-103): a text of spaces only is not changed. -/
def trim (t : Str) : Str :=
  if dropSpaces t = [] then t else (dropSpaces (dropSpaces t).reverse).reverse

/-- `split_string(s, ',', true)` and `std::find` (utils.cpp l.81-94). -/
def listed (s x : Str) : Bool := ((splitString s).map trim).contains x

/-- `DisplayMessageStatusEnum`. -/
inductive Status where
  | accepted | notSupportedMessageFormat | rejected | notSupportedPriority | notSupportedState | unknownTransaction
deriving DecidableEq, Repr

/-- l.98-100; `running` says whether `get_transaction_evseid` finds a transaction. -/
def transactionValid (running : Str → Bool) (i : Info) : Bool :=
  match i.transaction with
  | none => true
  | some t => running t

/-- l.123-136: a state is not supported if there is a list of states it is not in. -/
def stateSupported (c : Config) (i : Info) : Bool :=
  match i.state, c.states with
  | some s, some l => listed l s.text
  | _, _ => true

/-- The checks of l.102-136; `none`: no error. -/
def refusal (c : Config) (ps fs : Str) (running : Str → Bool) (i : Info) : Option Status :=
  if !(c.available.getD false) then some .rejected
  else if !(listed ps i.priority.text) then some .notSupportedPriority
  else if !(listed fs i.message.format.text) then some .notSupportedMessageFormat
  else if !(transactionValid running i) then some .unknownTransaction
  else if !(stateSupported c i) then some .notSupportedState
  else none

/-- What happens on `SetDisplayMessage`. -/
inductive SetResult where
  | threw
  | answered (s : Status)
  | asked (m : Message) (answer : Status)
deriving DecidableEq, Repr

/-- l.138-147; `app` is what the application answers. -/
def setAnswer (app : Message → Status) (i : Info) : Option Status → SetResult
  | some s => .answered s
  | none => .asked (toMessage i) (app (toMessage i))

/-- `handle_set_display_message` (l.76-148): `get_value` throws without a value. -/
def setMessage (c : Config) (running : Str → Bool) (app : Message → Status) (i : Info) : SetResult :=
  match c.priorities, c.formats with
  | some ps, some fs => setAnswer app i (refusal c ps fs running i)
  | _, _ => .threw

/-- `EvseManager::get_transaction_evseid` (lib/ocpp/v2/evse_manager.cpp): some EVSE has a transaction with that id, whatever the case. -/
def runningOf (open_ : List Str) (t : Str) : Bool := open_.any (fun x => decide (x.map Char.toLower = t.map Char.toLower))

end Verif.Display
