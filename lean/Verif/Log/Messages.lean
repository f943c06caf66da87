import Verif.Log.Model
/-! What `MessageLogging` writes for messages, events of the connection and security events: `lib/ocpp/common/ocpp_logging.cpp` l.315-525. -/

namespace Verif.Log

open Verif.Conf16 (Text bytes)

/-- What `json::parse` makes of a message, as far as `format_message` distinguishes (l.488-505): a CALL with its id and action, a CALL whose id is not a string, a CALLRESULT,
something else, or a text for which an exception is thrown before anything is set. -/
inductive Doc
  | call (id action : Text)
  | callBadId (action : Text)
  | result (id : Text)
  | other
  | invalid
  deriving DecidableEq, Repr

/-- A message: the text, the text that `dump(2)` gives, and what it is. -/
structure Msg where
  text : Text
  pretty : Text
  doc : Doc
  deriving DecidableEq, Repr

/-- `LogType` (include/ocpp/common/ocpp_logging.hpp l.39-43). -/
inductive Typ
  | chargePoint
  | centralSystem
  | system
  deriving DecidableEq, Repr

/-- What `log_output` is called with and writes (l.408-486), apart from the time. -/
structure Line where
  typ : Typ
  type : Text
  json : Text
  deriving DecidableEq, Repr

/-- `MessageLogging`: `lookup_map`, and what was written to the log of messages and to that of raw messages.
Simplified: the logs in text and in HTML get the same lines; a logger that writes neither is not modelled. -/
structure Logger where
  map : List (Text × Text) := []
  lines : List Line := []
  raws : List Line := []
  deriving DecidableEq, Repr

/-- `lookup_map[id]`: an empty text if there is none. -/
def look (m : List (Text × Text)) (id : Text) : Text := ((m.find? (fun e => e.1 == id)).map (·.2)).getD []

/-- `lookup_map[id] = v`. -/
def put (m : List (Text × Text)) (id v : Text) : List (Text × Text) := (id, v) :: m.filter (fun e => e.1 != id)

/-- `format_message` (l.488-510): the new map, the type and the text. `lookup_map[id].erase()` empties the text and keeps the element of the map. -/
def format (m : List (Text × Text)) (type : Text) (msg : Msg) : List (Text × Text) × Text × Text :=
  match msg.doc with
  | .call id action => (put m id (action ++ "Response".toList), action, msg.pretty)
  | .callBadId action => (m, action, msg.text)
  | .result id => (put m id [], look m id, msg.pretty)
  | .other => (m, type, msg.pretty)
  | .invalid => (m, type, msg.text)

/-- `charge_point` and `central_system` of one logger (l.315-320, l.329-334). -/
def Logger.message (l : Logger) (typ : Typ) (type : Text) (msg : Msg) : Logger :=
  { l with
    map := (format l.map type msg).1
    lines := l.lines ++ [⟨typ, (format l.map type msg).2.1, (format l.map type msg).2.2⟩] }

/-- `log_output` for the log of messages. -/
def Logger.output (l : Logger) (typ : Typ) (type json : Text) : Logger := { l with lines := l.lines ++ [⟨typ, type, json⟩] }

/-- `log_output` for the log of raw messages. -/
def Logger.outputRaw (l : Logger) (typ : Typ) (type json : Text) : Logger := { l with raws := l.raws ++ [⟨typ, type, json⟩] }

/-- The logger of the charging station with the loggers of the sessions (`session_id_logging`), with `session_logging` and `log_raw` as they are configured. -/
structure State where
  session : Bool
  raw : Bool
  main : Logger := {}
  open' : List (Text × Logger) := []
  deriving DecidableEq, Repr

inductive Call
  | message (sent : Bool) (type : Text) (msg : Msg)
  | sys (text : Text)
  | raw (sent : Bool) (text : Text)
  | startSession (id : Text)
  | stopSession (id : Text)
  deriving DecidableEq, Repr

/-- The type of a message that the charging station sends or receives. -/
def direction (sent : Bool) : Typ := if sent then .chargePoint else .centralSystem

/-- `n` times the same line. -/
def times (f : Logger → Logger) : Nat → Logger → Logger
  | 0, l => l
  | n + 1, l => times f n (f l)

/-- `charge_point`, `central_system` (l.315-341), `sys` (l.343-351: for every session once more to the same log), `raw` (l.363-373: likewise, with the arguments the other
way round), `start_session_logging`, `stop_session_logging` (l.512-530). Loggers of sessions have no sessions and no log in text. -/
def act (s : State) : Call → State
  | .message sent type msg =>
    { s with
      main := s.main.message (direction sent) type msg
      open' := if s.session then s.open'.map (fun e => (e.1, e.2.message (direction sent) type msg)) else s.open' }
  | .sys text =>
    { s with main := times (fun l => l.output .system text []) (if s.session then s.open'.length else 0) (s.main.output .system text []) }
  | .raw sent text =>
    if s.raw then
      { s with main := times (fun l => l.outputRaw (direction sent) [] text) (if s.session then s.open'.length else 0) (s.main.outputRaw (direction sent) text []) }
    else s
  | .startSession id => { s with open' := (id, {}) :: s.open'.filter (fun e => e.1 != id) }
  | .stopSession id => { s with open' := s.open'.filter (fun e => e.1 != id) }

def history (s : State) (cs : List Call) : State := cs.foldl act s

/-! ## HTML -/

def replaceAll (c : Char) (by' : Text) (t : Text) : Text := t.flatMap (fun x => if x = c then by' else [x])

/-- `html_encode` (l.376-381). -/
def encode (t : Text) : Text := replaceAll '>' "&gt;".toList (replaceAll '<' "&lt;".toList t)

def origin : Typ → Text
  | .chargePoint => "ChargePoint".toList
  | .centralSystem => "CentralSystem".toList
  | .system => "SYS".toList

def target : Typ → Text
  | .chargePoint => "CentralSystem".toList
  | .centralSystem => "ChargePoint".toList
  | .system => []

/-- `write_html_log_to_file` (l.392-400). -/
def row (time : Text) (l : Line) : Text :=
  "<tr class=\"".toList ++ origin l.typ ++ "\"> <td>".toList ++ time ++ "</td> <td>".toList ++ origin l.typ ++ "&gt;".toList ++ target l.typ ++
    "</td> <td><b>".toList ++ (if l.typ = .chargePoint ∨ l.typ = .system then l.type else []) ++ "</b></td><td><b>".toList ++ (if l.typ = .centralSystem then l.type else []) ++
    "</b></td> <td><pre lang=\"json\">".toList ++ encode l.json ++ "</pre></td> </tr>\n".toList

/-! ## Security events -/

/-- The thread waits for itself for ever, or the files of the security log. -/
inductive Outcome
  | blocked
  | undefined
  | returned (d : Dir)
  deriving DecidableEq, Repr

/-- `security` (l.353-361) when `output_file_mutex` is free, or held by the same thread: `std::mutex` is not recursive, a second `lock` of the same thread does not return
(and is undefined by the standard). `status_callback` (lib/ocpp/v2/charge_point.cpp l.294-302, lib/ocpp/v16/charge_point_impl.cpp l.86-92) reports a deletion as a security
event with `SECURITYLOGWASCLEARED`, and for this calls `security` of the same logger (lib/ocpp/v2/functional_blocks/security.cpp l.149, lib/ocpp/v16/charge_point_impl.cpp l.3035).
`fuel` bounds the calls of `security` within each other. -/
def securityEvent (cfg : Cfg) (stamp cleared : Text) : Nat → Bool → Dir → Text → Outcome
  | 0, _, _, _ => .undefined
  | fuel + 1, held, d, e =>
    if held then .blocked
    else match rotateIfNeeded cfg stamp d with
      | none => .undefined
      | some (d', st) =>
        if st = .rotatedWithDeletion then
          match securityEvent cfg stamp cleared fuel true d' cleared with
          | .returned d'' => .returned (append d'' [.entry e])
          | o => o
        else .returned (append d' [.entry e])

end Verif.Log
