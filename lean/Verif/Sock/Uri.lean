/-
Model of the address of the CSMS: `ocpp::uri` (`3rd_party/websocketpp_utils/uri.hpp`), `Uri`
(`lib/ocpp/common/websocket/websocket_uri.cpp`, `include/ocpp/common/websocket/websocket_uri.hpp`), the checks of
`set_connection_options` (`lib/ocpp/common/websocket/websocket_libwebsockets.cpp` l.383-418) and what the client thread
hands to libwebsockets (l.720-773).

Strings are lists of characters.
-/
namespace Verif.Sock

/-- A string. -/
abbrev Str := List Char

/-- Exceptions that matter: `std::invalid_argument`, and `std::out_of_range` of `std::stoul`. -/
inductive Err
  | invalidArgument
  | outOfRange
deriving DecidableEq, Repr

/-- What is left of `s` behind the prefix `p`, if it has that prefix (`std::equal`). -/
def stripPrefix : Str → Str → Option Str
  | [], s => some s
  | _ :: _, [] => none
  | p :: ps, c :: s => if p = c then stripPrefix ps s else none

/-- `s.find(p) != npos`. -/
def contains (p : Str) : Str → Bool
  | [] => (stripPrefix p []).isSome
  | c :: s => (stripPrefix p (c :: s)).isSome || contains p s

/-- The `isspace` of the C locale. -/
def isSpace (c : Char) : Bool :=
  c = ' ' || c = '\t' || c = '\n' || c = '\x0b' || c = '\x0c' || c = '\r'

/-- The value of the leading decimal digits; `none` without any. -/
def leadingDigits : Option Nat → Str → Option Nat
  | acc, [] => acc
  | acc, c :: r => if c.isDigit then leadingDigits (some (acc.getD 0 * 10 + (c.toNat - 48))) r else acc

/-- `std::stoul(s)` with 64-bit `unsigned long`: white space, a sign, digits; what follows the digits is ignored.  A
negative number wraps around. -/
def stoul (s : Str) : Except Err Nat :=
  let t := s.dropWhile isSpace
  let neg := t.head? = some '-'
  let u := if t.head? = some '-' ∨ t.head? = some '+' then t.drop 1 else t
  match leadingDigits none u with
  | none => .error .invalidArgument
  | some n =>
    if n > 18446744073709551615 then .error .outOfRange
    else .ok (if neg ∧ n ≠ 0 then 18446744073709551616 - n else n)

/-- The members of `ocpp::uri` (`uri.hpp` l.303-308) without `m_scheme`; `valid` is `m_valid`. -/
structure EvUri where
  secure : Bool
  host : Str
  port : Nat
  resource : Str
  valid : Bool
deriving DecidableEq, Repr

/-- `get_port_from_string` (`uri.hpp` l.284-301): the port and whether it is valid. -/
def portFrom (secure : Bool) (port : Str) : Except Err (Nat × Bool) :=
  if port = [] then .ok (if secure then 443 else 80, true)
  else match stoul port with
    | .error e => .error e
    | .ok t => .ok (t % 65536, !(decide (t > 65535) || decide (t = 0)))

/-- The prefix "ws://". -/
def sWs : Str := ['w', 's', ':', '/', '/']

/-- The prefix "wss://". -/
def sWss : Str := ['w', 's', 's', ':', '/', '/']

/-- The prefix "http://". -/
def sHttp : Str := ['h', 't', 't', 'p', ':', '/', '/']

/-- The prefix "https://". -/
def sHttps : Str := ['h', 't', 't', 'p', 's', ':', '/', '/']

/-- The separator "://". -/
def sSep : Str := [':', '/', '/']

/-- The scheme: whether it is secure and what follows (`uri.hpp` l.57-75); something has to follow it. -/
def schemeOf (s : Str) : Option (Bool × Str) :=
  match stripPrefix sWss s with
  | some (c :: r) => some (true, c :: r)
  | _ => match stripPrefix sWs s with
    | some (c :: r) => some (false, c :: r)
    | _ => match stripPrefix sHttp s with
      | some (c :: r) => some (false, c :: r)
      | _ => match stripPrefix sHttps s with
        | some (c :: r) => some (true, c :: r)
        | _ => none

/-- Not a slash. -/
def notSlash (c : Char) : Bool := c != '/'

/-- Not the end of an address in brackets. -/
def notBracket (c : Char) : Bool := c != ']'

/-- Not the end of a host. -/
def inHost (c : Char) : Bool := c != '/' && c != ':'

/-- Host, text of the port up to the next slash, and rest (`uri.hpp` l.138-158 with `state == 1`). -/
def afterColon (host r : Str) : Str × Str × Str :=
  (host, r.takeWhile notSlash, (r.dropWhile notSlash).drop 1)

/-- A host in brackets; `r` begins with the closing bracket (`uri.hpp` l.97-116). -/
def afterBracket (host r : Str) : Option (Str × Str × Str) :=
  match r with
  | [_] => some (host, [], [])
  | _ :: '/' :: q => some (host, [], q)
  | _ :: ':' :: q => some (afterColon host q)
  | _ => none

/-- A host without brackets and what follows it (`uri.hpp` l.120-134). -/
def afterHost (host r : Str) : Str × Str × Str :=
  match r with
  | [] => (host, [], [])
  | '/' :: q => (host, [], q)
  | _ :: q => afterColon host q

/-- Host, text of the port and rest (`uri.hpp` l.77-158); `none` for an address in brackets that is not closed or not
followed by `/`, `:` or the end. -/
def splitAuthority (s : Str) : Option (Str × Str × Str) :=
  if s.head? = some '[' then
    afterBracket ((s.drop 1).takeWhile notBracket) ((s.drop 1).dropWhile notBracket)
  else some (afterHost (s.takeWhile inHost) (s.dropWhile inHost))

/-- The constructor of `ocpp::uri` from a string (`uri.hpp` l.48-159).  Where it returns early, `m_valid` is false and
the other members do not matter. -/
def evUri (s : Str) : Except Err EvUri :=
  match schemeOf s with
  | none => .ok ⟨false, [], 0, [], false⟩
  | some (secure, r) =>
    match splitAuthority r with
    | none => .ok ⟨secure, [], 0, [], false⟩
    | some (host, port, rest) =>
      match portFrom secure port with
      | .error e => .error e
      | .ok (p, v) => .ok ⟨secure, host, p, '/' :: rest, v⟩

/-- The decimal digits of a number, most significant first; `fuel` bounds their number. -/
def decimal : Nat → Nat → Str
  | 0, _ => []
  | fuel + 1, n => if n < 10 then [Char.ofNat (48 + n)] else decimal fuel (n / 10) ++ [Char.ofNat (48 + n % 10)]

/-- `str()` of an `ocpp::uri` made from its parts (`uri.hpp` l.161-168, l.255-266). -/
def evString (secure : Bool) (host : Str) (port : Nat) (resource : Str) : Str :=
  (if secure then sWss else sWs) ++ host
    ++ (if port ≠ (if secure then 443 else 80) then ':' :: decimal 5 port else [])
    ++ (if resource = [] then ['/'] else resource)

/-- The members of `Uri` (`websocket_uri.hpp` l.74-78). -/
structure Uri where
  secure : Bool
  host : Str
  port : Nat
  path : Str
  id : Str
deriving DecidableEq, Repr

/-- `Uri::string` (`websocket_uri.hpp` l.54-62). -/
def Uri.string (u : Uri) : Str := evString u.secure u.host u.port (u.path ++ u.id)

/-- The part of the string up to and including the last slash, and the part behind it. -/
def splitLast (s : Str) : Str × Str :=
  ((s.reverse.dropWhile notSlash).reverse, (s.reverse.takeWhile notSlash).reverse)

/-- `path_split_last_segment` (`websocket_uri.cpp` l.16-36): with a slash at the end, that slash is removed and the
position of the last slash is decremented, which makes it the position of the last character (l.27-30). -/
def pathSplit (path : Str) : Str × Str :=
  if path = ['/'] then (['/'], [])
  else if path.getLast? = some '/' then (path.dropLast, [])
  else splitLast path

/-- `Uri::parse_and_validate` (`websocket_uri.cpp` l.39-100). -/
def parseAndValidate (uri id : Str) (profile : Int) : Except Err Uri :=
  if uri = [] then .error .invalidArgument
  else if id = [] then .error .invalidArgument
  else
    let added := !contains sSep uri
    let uri' := if added then (if profile ≥ 2 then sWss else sWs) ++ uri else uri
    match evUri uri' with
    | .error e => .error e
    | .ok t =>
      if !t.valid then .error .invalidArgument
      else if !added && (profile = 0 || profile = 1) && t.secure then .error .invalidArgument
      else if !added && (profile = 2 || profile = 3) && !t.secure then .error .invalidArgument
      else if !added && !(profile = 0 || profile = 1 || profile = 2 || profile = 3) then .error .invalidArgument
      else
        let path := if (pathSplit t.resource).2 = id then (pathSplit t.resource).1 else t.resource
        let path' := if path.getLast? = some '/' then path else path ++ ['/']
        .ok ⟨t.secure, t.host, t.port, path', id⟩

/-- What libwebsockets is asked to connect to (`websocket_libwebsockets.cpp` l.720-773). -/
structure Target where
  tls : Bool
  host : Str
  port : Nat
  path : Str
deriving DecidableEq, Repr

/-- The target for an address, identity and security profile: `parse_and_validate` (in `get_ws_connection_options`:
`lib/ocpp/v16/charge_point_impl.cpp` l.398-401, `lib/ocpp/v2/connectivity_manager.cpp` l.335-339), the security profile
checked by `set_connection_options` (`websocket_libwebsockets.cpp` l.384-393), `ssl_connection` (l.720-737) and the path
(l.754). -/
def target (uri id : Str) (profile : Int) : Except Err Target :=
  match parseAndValidate uri id profile with
  | .error e => .error e
  | .ok u =>
    if profile = 0 ∨ profile = 1 ∨ profile = 2 ∨ profile = 3 then
      .ok ⟨decide (profile = 2 ∨ profile = 3), u.host, u.port, u.path ++ u.id⟩
    else .error .invalidArgument

end Verif.Sock
