/-!
# Whom the WebSocket client trusts

Preparation of the TLS context and verification of the certificate of the CSMS (`lib/ocpp/common/websocket/websocket_libwebsockets.cpp` l.175-210 handing over and freeing the
contexts, l.274-335 `wildcard_X509_check_host` and `verify_csms_cn`, l.454-560 `tls_init`, l.607-696 `initialize_connection_options`, l.702-810 the body of the client loop,
l.1208-1235 the verification callback).

OpenSSL, libwebsockets and the certificate store are inputs: whether each of their functions succeeds is in `Env`, and what they say about the certificates of the server is in
`Server`.  Assumed of libwebsockets: for every certificate of the chain of the server, from the root to the leaf, its verification callback calls the callback of the code, and a
certificate is refused if OpenSSL refused it or the callback did not return 0; the first refused certificate ends the handshake.  The check of the host name that libwebsockets itself
makes unless `LCCSCF_SKIP_SERVER_CERT_HOSTNAME_CHECK` is given is not modelled (it can only refuse more servers).  Not modelled: the key log, the network interface, the cipher lists
themselves (only whether OpenSSL takes them).
-/

namespace Verif.Sock

/-- The connection options that are read here (`include/ocpp/common/websocket/websocket_base.hpp` l.16-45). -/
structure TrustOptions where
  profile : Int
  verifyName : Bool
  wildcards : Bool
  defaultPaths : Bool
  host : String
deriving DecidableEq, Repr

/-- `CertificateInfo` of the station's certificate: path of the chain, path of the single certificate, of the key, and the password. -/
structure LeafInfo where
  chain : Option String
  single : Option String
  key : String
  password : Option String
deriving DecidableEq, Repr

/-- What the certificate store, OpenSSL and libwebsockets answer during one attempt.  `leaf` is `none` if the status is not Accepted or there is no information. -/
structure Env where
  leaf : Option LeafInfo := none
  newContext : Bool := true
  ciphers12 : Bool := true
  ciphers13 : Bool := true
  chainLoads : String → Bool := fun _ => true
  keyLoads : String → Option String → Bool := fun _ _ => true
  keyMatches : Bool := true
  csmsInstalled : Bool := true
  csmsLoads : Bool := true
  defaultLoads : Bool := true
  lwsContext : Bool := true
  lwsConnect : Bool := true

/-- Sources of trusted root certificates. -/
inductive Anchor
  | csms
  | system
deriving DecidableEq, Repr

/-- The certificate, key and password of the client in the TLS context. -/
structure ClientCert where
  chain : String
  key : String
  password : Option String
deriving DecidableEq, Repr

/-- What has been set in an `SSL_CTX`. -/
structure Ssl where
  anchors : List Anchor
  client : Option ClientCert
  verifyPeer : Bool
deriving DecidableEq, Repr

/-- What the server presents: the verdict of OpenSSL on each certificate of its chain from the root to the leaf, given the trusted roots, and the answer of `X509_check_host` for the
leaf: with wildcards (`X509_CHECK_FLAG_NO_PARTIAL_WILDCARDS`) or without (`X509_CHECK_FLAG_NO_WILDCARDS`). -/
structure Server where
  verdicts : List Anchor → List Bool
  hostMatches : (wildcards : Bool) → String → Bool

/-- The client's certificate in `tls_init` (l.472-507): `none` is failure. -/
def clientCert (o : TrustOptions) (e : Env) (chain key : String) (password : Option String) : Option (Option ClientCert) :=
  if o.profile = 3 then
    if chain = "" ∨ key = "" then none
    else if !e.chainLoads chain then none
    else if !e.keyLoads key password then none
    else if !e.keyMatches then none
    else some (some ⟨chain, key, password⟩)
  else some none

/-- The trusted roots in `tls_init` (l.509-535): `none` is failure.  Loading adds roots only if it succeeds. -/
def anchorsOf (o : TrustOptions) (e : Env) : Option (List Anchor) :=
  if e.csmsInstalled && !e.csmsLoads then none
  else if o.defaultPaths && !e.defaultLoads then none
  else some ((if e.csmsInstalled && e.csmsLoads then [Anchor.csms] else []) ++ (if o.defaultPaths && e.defaultLoads then [Anchor.system] else []))

/-- `tls_init` (l.454-565).  A failure with the cipher suites of TLS 1.3 is only logged. -/
def tlsInit (o : TrustOptions) (e : Env) (chain key : String) (password : Option String) : Option Ssl :=
  if !e.ciphers12 then none
  else
    match clientCert o e chain key password with
    | none => none
    | some c =>
      match anchorsOf o e with
      | none => none
      | some a => some ⟨a, c, true⟩

/-- The paths and the password for profile 3 (l.638-662): `none` is failure. -/
def leafPaths (o : TrustOptions) (e : Env) : Option (String × String × Option String) :=
  if o.profile = 3 then
    match e.leaf with
    | none => none
    | some i =>
      match i.chain, i.single with
      | some c, _ => some (c, i.key, i.password)
      | none, some s => some (s, i.key, i.password)
      | none, none => none
  else some ("", "", none)

/-- What `initialize_connection_options` leaves behind: whether an `SSL_CTX` was created, and, on success, the context that the connection owns (`none` inside: no TLS). -/
structure Prepared where
  created : Bool
  result : Option (Option Ssl)
deriving DecidableEq, Repr

/-- `initialize_connection_options` (l.607-696). -/
def prepare (o : TrustOptions) (e : Env) : Prepared :=
  if o.profile = 2 ∨ o.profile = 3 then
    match leafPaths o e with
    | none => ⟨false, none⟩
    | some (chain, key, password) =>
      if !e.newContext then ⟨false, none⟩
      else
        match tlsInit o e chain key password with
        | none => ⟨true, none⟩
        | some s => if e.lwsContext then ⟨true, some (some s)⟩ else ⟨true, none⟩
  else if e.lwsContext then ⟨false, some none⟩
  else ⟨false, none⟩

/-- `verify_csms_cn` (l.283-335). -/
def verifyCn (o : TrustOptions) (srv : Server) (preverified : Bool) (depth : Nat) : Bool :=
  if depth = 0 ∧ preverified = true then
    if srv.hostMatches o.wildcards o.host then preverified else false
  else preverified

/-- The verification of the chain: the case `LWS_CALLBACK_OPENSSL_PERFORM_SERVER_CERT_VERIFICATION` (l.1209-1235) for each certificate, and what libwebsockets makes of it.  The
result is whether the server is accepted and how often InvalidCSMSCertificate is reported. -/
def verifyChain (o : TrustOptions) (srv : Server) : List Bool → Bool × Nat
  | [] => (true, 0)
  | pre :: rest =>
    if o.verifyName then
      if verifyCn o srv pre rest.length then
        if pre then verifyChain o srv rest else (false, 0)
      else (false, 1)
    else if pre then verifyChain o srv rest
    else (false, 0)

/-- How an attempt ends. -/
inductive Ending
  | notPrepared
  | noConnection
  | plain
  | refused
  | secured (client : Option ClientCert)
deriving DecidableEq, Repr

/-- One attempt: its end, the number of InvalidCSMSCertificate reports, and the number of TLS contexts created and freed. -/
structure Attempt where
  ending : Ending
  reports : Nat
  created : Nat
  freed : Nat
deriving DecidableEq, Repr

/-- One pass of the client loop (l.710-810).  A context handed over to the connection is freed at the end of the pass (`reset_connection_data`, l.175-192, l.804); a context that was not
handed over is not freed by anybody.  A server without certificate is refused (OpenSSL clients offer no anonymous cipher suites). -/
def attempt (o : TrustOptions) (e : Env) (srv : Server) : Attempt :=
  let p := prepare o e
  let n := if p.created then 1 else 0
  match p.result with
  | none => ⟨.notPrepared, 0, n, 0⟩
  | some c =>
    if !e.lwsConnect then ⟨.noConnection, 0, n, n⟩
    else
      match c with
      | none => ⟨.plain, 0, n, n⟩
      | some s =>
        if srv.verdicts s.anchors = [] then ⟨.refused, 0, n, n⟩
        else
          let v := verifyChain o srv (if s.verifyPeer then srv.verdicts s.anchors else [])
          if v.1 then ⟨.secured s.client, v.2, n, n⟩ else ⟨.refused, v.2, n, n⟩

/-- The TLS contexts that exist after a list of attempts, the last of which is over. -/
def leftOver (o : TrustOptions) : List (Env × Server) → Nat
  | [] => 0
  | (e, srv) :: rest => ((attempt o e srv).created - (attempt o e srv).freed) + leftOver o rest

end Verif.Sock
