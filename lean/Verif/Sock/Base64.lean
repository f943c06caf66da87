/-
Model of the basic authentication header: `base64_encode`, `base64_decode` (`3rd_party/websocketpp_utils/base64.hpp`)
and `WebsocketBase::getAuthorizationHeader` (`lib/ocpp/common/websocket/websocket_base.cpp` l.113-128).

Bytes are natural numbers below 256.  `unsigned char` conversions are `% 256`.
-/
namespace Verif.Sock

/-- A string as its bytes. -/
abbrev Bytes := List Nat

/-- `base64_chars` (`base64.hpp` l.43-45). -/
def base64Chars : List Char :=
  "ABCDEFGHIJKLMNOPQRSTUVWXYZabcdefghijklmnopqrstuvwxyz0123456789+/".toList

/-- `base64_chars[i]`: reading behind the last character gives the terminating zero byte. -/
def charAt (i : Nat) : Char := (base64Chars[i]?).getD '\x00'

/-- The four indices of a group of three bytes (`base64.hpp` l.75-78, l.92-95). -/
def quad (a b c : Nat) : List Nat :=
  [((a &&& 0xfc) >>> 2) % 256,
   (((a &&& 0x03) <<< 4) + ((b &&& 0xf0) >>> 4)) % 256,
   (((b &&& 0x0f) <<< 2) + ((c &&& 0xc0) >>> 6)) % 256,
   c &&& 0x3f]

/-- `base64_encode` (`base64.hpp` l.65-107): the loop takes three bytes at a time (l.72-85); with `i` bytes left over,
`i + 1` characters and `3 - i` signs `=` follow (l.87-104). -/
def base64Encode : Bytes → List Char
  | a :: b :: c :: r => (quad a b c).map charAt ++ base64Encode r
  | [a, b] => ((quad a b 0).take 3).map charAt ++ ['=']
  | [a] => ((quad a 0 0).take 2).map charAt ++ ['=', '=']
  | [] => []

/-- `is_base64` (`base64.hpp` l.52-57). -/
def isBase64 (c : Char) : Bool :=
  c.toNat == 43 || (decide (47 ≤ c.toNat) && decide (c.toNat ≤ 57)) || (decide (65 ≤ c.toNat) && decide (c.toNat ≤ 90))
    || (decide (97 ≤ c.toNat) && decide (c.toNat ≤ 122))

/-- The position of the first occurrence. -/
def findFrom (c : Char) : List Char → Nat → Option Nat
  | [], _ => none
  | x :: r, n => if x = c then some n else findFrom c r (n + 1)

/-- `static_cast<unsigned char>(base64_chars.find(c))`: `npos` becomes 255 (`base64.hpp` l.137, l.157). -/
def indexOfChar (c : Char) : Nat := (findFrom c base64Chars 0).getD 255

/-- The three bytes of a group of four indices (`base64.hpp` l.140-142, l.160-162). -/
def triple (p q r s : Nat) : Bytes :=
  [((p <<< 2) + ((q &&& 0x30) >>> 4)) % 256,
   (((q &&& 0xf) <<< 4) + ((r &&& 0x3c) >>> 2)) % 256,
   (((r &&& 0x3) <<< 6) + s) % 256]

/-- The bytes of the characters collected when the loop ends (`base64.hpp` l.151-167): missing characters are zero
bytes, which are not in the alphabet. -/
def decodeTail (acc : List Char) : Bytes :=
  if acc = [] then []
  else
    let at' (i : Nat) := indexOfChar ((acc[i]?).getD '\x00')
    (triple (at' 0) (at' 1) (at' 2) (at' 3)).take (acc.length - 1)

/-- The loop of `base64_decode` (`base64.hpp` l.132-149); `acc` holds the characters of the group being read. -/
def decodeLoop : List Char → List Char → Bytes
  | acc, [] => decodeTail acc
  | acc, c :: r =>
    if c = '=' || !isBase64 c then decodeTail acc
    else match acc with
      | [x, y, z] => triple (indexOfChar x) (indexOfChar y) (indexOfChar z) (indexOfChar c) ++ decodeLoop [] r
      | _ => decodeLoop (acc ++ [c]) r

/-- `base64_decode` (`base64.hpp` l.123-170). -/
def base64Decode (s : List Char) : Bytes := decodeLoop [] s

/-- `getAuthorizationHeader` (`websocket_base.cpp` l.113-128) with the bytes of the identity and of the key. -/
def authHeader (identity : Bytes) (key : Option Bytes) : Option (List Char) :=
  key.map (fun k => "Basic ".toList ++ base64Encode (identity ++ [58] ++ k))

/-- The header is sent with security profile 1 or 2; without a key the handshake throws
(`websocket_libwebsockets.cpp` l.1260-1288). -/
inductive Handshake
  | noHeader
  | header (h : List Char)
  | throws
deriving DecidableEq, Repr

/-- The part of the handshake that adds the header (`websocket_libwebsockets.cpp` l.1260-1288). -/
def handshake (profile : Int) (identity : Bytes) (key : Option Bytes) : Handshake :=
  if profile = 1 ∨ profile = 2 then
    match authHeader identity key with
    | some h => .header h
    | none => .throws
  else .noHeader

end Verif.Sock
