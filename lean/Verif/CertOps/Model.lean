import Verif.Security.Model

/-!
# Certificates: what the CSMS installs, deletes, lists and signs

Model of the handlers of CertificateSigned, InstallCertificate, DeleteCertificate and GetInstalledCertificateIds:
OCPP 2.x (`lib/ocpp/v2/functional_blocks/security.cpp`), OCPP 1.6 with the security extension and Plug&Charge through
DataTransfer (`lib/ocpp/v16/charge_point_impl.cpp`), with the conversions between the types of the messages, those of the
library (`lib/ocpp/common/evse_security.cpp`) and those of the security module (`lib/ocpp/common/evse_security_impl.cpp`). The
security module itself (`evse_security`, another project) is a parameter: any function of its arguments.

Answers are modelled as they are on the wire: statuses, types and hash algorithms by their texts (the texts of the other
enumerations: C49). The dispatcher turns an exception of a handler into a CALLERROR (`Recv`, C138); that is `exc`.
-/

namespace Verif.CertOps

open Verif.Sec (CertType Policy mayInstall)

/-! ## Types of the security module (used in `evse_security_impl.cpp` l.165-360) -/

/-- `evse_security::CaCertificateType`. -/
inductive LCa
  | v2g | mo | csms | mf
deriving DecidableEq, Repr

/-- `evse_security::LeafCertificateType`. -/
inductive LLeaf
  | csms | v2g | mf | mo
deriving DecidableEq, Repr

/-- `evse_security::CertificateType`. -/
inductive LType
  | v2gRoot | moRoot | csmsRoot | v2gChain | mfRoot
deriving DecidableEq, Repr

/-- `evse_security::HashAlgorithm`. -/
inductive LAlg
  | sha256 | sha384 | sha512
deriving DecidableEq, Repr

/-- `evse_security::InstallCertificateResult`. -/
inductive LInstall
  | invalidSignature | invalidCertificateChain | invalidFormat | invalidCommonName | noRootCertificateInstalled | expired
  | storeMaxLengthExceeded | writeError | accepted
deriving DecidableEq, Repr

/-- `evse_security::DeleteCertificateResult`. -/
inductive LDelete
  | accepted | failed | notFound
deriving DecidableEq, Repr

/-- `evse_security::CertificateHashData`. -/
structure LHash where
  alg : LAlg
  name : String
  key : String
  serial : String
deriving DecidableEq, Repr

/-- `evse_security::CertificateHashDataChain`. -/
structure LChain where
  type : LType
  hash : LHash
  children : List LHash
deriving DecidableEq, Repr

/-- The security module, at the time of a request. -/
structure Module where
  install : String → LCa → LInstall
  leaf : String → LLeaf → LInstall
  delete : LHash → LDelete
  list : List LType → List LChain

/-! ## Types of libocpp (`include/ocpp/common/types.hpp` l.449-660) -/

/-- `CaCertificateType`, l.449-455. -/
inductive Ca
  | v2g | mo | csms | mf | oem
deriving DecidableEq, Repr

/-- `CertificateType`, l.583-590. -/
inductive CType
  | v2gRoot | moRoot | csmsRoot | v2gChain | mfRoot | oemRoot
deriving DecidableEq, Repr

/-- `CertificateSigningUseEnum`, l.643-648. -/
inductive Signing
  | chargingStation | v2g | manufacturer | v2g20
deriving DecidableEq, Repr

/-- `InstallCertificateResult`, l.498-508. -/
inductive InstallRes
  | invalidSignature | invalidCertificateChain | invalidFormat | invalidCommonName | noRootCertificateInstalled | expired
  | storeMaxLengthExceeded | writeError | accepted
deriving DecidableEq, Repr

/-- `DeleteCertificateResult`, l.525-529. -/
inductive DeleteRes
  | accepted | failed | notFound
deriving DecidableEq, Repr

/-- `HashAlgorithmEnumType`, l.547-551. -/
inductive Alg
  | sha256 | sha384 | sha512
deriving DecidableEq, Repr

/-- `CertificateHashDataType`, l.567-572; the same members in OCPP 1.6 and 2.x. -/
structure Hash where
  alg : Alg
  name : String
  key : String
  serial : String
deriving DecidableEq, Repr

/-- `CertificateHashDataChain`, l.606-610. -/
structure Chain where
  type : CType
  hash : Hash
  children : Option (List Hash)
deriving DecidableEq, Repr

/-- `ocpp::v2::GetCertificateIdUseEnum`. -/
inductive IdUse
  | v2gRoot | moRoot | csmsRoot | v2gChain | manufacturerRoot | oemRoot
deriving DecidableEq, Repr

/-- `ocpp::v2::CertificateSigningUseEnum`. -/
inductive SigningUse
  | chargingStation | v2g | v2g20
deriving DecidableEq, Repr

/-- `ocpp::v16::CertificateUseEnumType`. -/
inductive Use16
  | centralSystemRoot | manufacturerRoot
deriving DecidableEq, Repr

/-! ## Conversions -/

/-- Exceptions: `EnumConversionException`, `StringConversionException`. -/
inductive Exc
  | enum | string
deriving DecidableEq, Repr

/-- `from_ocpp(CaCertificateType)`, evse_security_impl.cpp l.361-376. -/
def Ca.lib : Ca → Except Exc LCa
  | .v2g => .ok .v2g
  | .mo => .ok .mo
  | .csms => .ok .csms
  | .mf => .ok .mf
  | .oem => .error .enum

/-- `from_ocpp(CertificateSigningUseEnum)`, l.392-406. -/
def Signing.lib : Signing → Except Exc LLeaf
  | .chargingStation => .ok .csms
  | .v2g => .ok .v2g
  | .manufacturer => .ok .mf
  | .v2g20 => .error .enum

/-- `from_ocpp(CertificateType)`, l.408-425. -/
def CType.lib : CType → Except Exc LType
  | .v2gRoot => .ok .v2gRoot
  | .moRoot => .ok .moRoot
  | .csmsRoot => .ok .csmsRoot
  | .v2gChain => .ok .v2gChain
  | .mfRoot => .ok .mfRoot
  | .oemRoot => .error .enum

/-- `from_ocpp(HashAlgorithmEnumType)`, l.427-437. -/
def Alg.lib : Alg → LAlg
  | .sha256 => .sha256
  | .sha384 => .sha384
  | .sha512 => .sha512

/-- `from_ocpp(CertificateHashDataType)`, l.477-484. -/
def Hash.lib (h : Hash) : LHash := ⟨h.alg.lib, h.name, h.key, h.serial⟩

/-- `to_ocpp(evse_security::CertificateType)`, l.195-209. -/
def LType.ocpp : LType → CType
  | .v2gRoot => .v2gRoot
  | .moRoot => .moRoot
  | .csmsRoot => .csmsRoot
  | .v2gChain => .v2gChain
  | .mfRoot => .mfRoot

/-- `to_ocpp(evse_security::HashAlgorithm)`, l.211-221. -/
def LAlg.ocpp : LAlg → Alg
  | .sha256 => .sha256
  | .sha384 => .sha384
  | .sha512 => .sha512

/-- `to_ocpp(evse_security::InstallCertificateResult)`, l.240-263. -/
def LInstall.ocpp : LInstall → InstallRes
  | .invalidSignature => .invalidSignature
  | .invalidCertificateChain => .invalidCertificateChain
  | .invalidFormat => .invalidFormat
  | .invalidCommonName => .invalidCommonName
  | .noRootCertificateInstalled => .noRootCertificateInstalled
  | .expired => .expired
  | .storeMaxLengthExceeded => .storeMaxLengthExceeded
  | .writeError => .writeError
  | .accepted => .accepted

/-- `to_ocpp(evse_security::DeleteCertificateResult)`, l.286-297. -/
def LDelete.ocpp : LDelete → DeleteRes
  | .accepted => .accepted
  | .failed => .failed
  | .notFound => .notFound

/-- Assignment of a text to a `CiString<n>`, which throws if the text is too long (C44). -/
def fit (n : Nat) (s : String) : Except Exc String := if s.utf8ByteSize ≤ n then .ok s else .error .string

/-- `to_ocpp(evse_security::CertificateHashData)`, l.299-306, with the lengths of the members of the target. -/
def LHash.ocpp (h : LHash) : Except Exc Hash := do
  let n ← fit 128 h.name
  let k ← fit 128 h.key
  let s ← fit 40 h.serial
  pure ⟨h.alg.ocpp, n, k, s⟩

/-- `to_ocpp(evse_security::CertificateHashDataChain)`, l.308-321. -/
def LChain.ocpp (c : LChain) : Except Exc Chain := do
  let h ← c.hash.ocpp
  let cs ← c.children.mapM LHash.ocpp
  pure ⟨c.type.ocpp, h, some cs⟩

/-- `from_ocpp_v2(GetCertificateIdUseEnum)`, evse_security.cpp l.133-150. -/
def IdUse.ocpp : IdUse → CType
  | .v2gRoot => .v2gRoot
  | .v2gChain => .v2gChain
  | .moRoot => .moRoot
  | .csmsRoot => .csmsRoot
  | .manufacturerRoot => .mfRoot
  | .oemRoot => .oemRoot

/-- `from_ocpp_v2(InstallCertificateUseEnum)`, l.161-176 (`CertType`: `InstallCertificateUseEnum`). -/
def useCa : CertType → Ca
  | .v2gRoot => .v2g
  | .moRoot => .mo
  | .csmsRoot => .csms
  | .manufacturerRoot => .mf
  | .oemRoot => .oem

/-- `to_ocpp_v2(CertificateType)`, l.10-27, and the text of the value (ocpp_enums.cpp l.1811-1828). -/
def CType.wire : CType → String
  | .v2gRoot => "V2GRootCertificate"
  | .moRoot => "MORootCertificate"
  | .csmsRoot => "CSMSRootCertificate"
  | .v2gChain => "V2GCertificateChain"
  | .mfRoot => "ManufacturerRootCertificate"
  | .oemRoot => "OEMRootCertificate"

/-- `to_ocpp_v2(HashAlgorithmEnumType)`, l.46-57, and the text of the value; the same texts in `common/types.cpp`. -/
def Alg.wire : Alg → String
  | .sha256 => "SHA256"
  | .sha384 => "SHA384"
  | .sha512 => "SHA512"

/-- `to_ocpp_v2(InstallCertificateResult)`, l.59-76, and the text of the value. -/
def InstallRes.wire : InstallRes → String
  | .invalidSignature | .invalidCertificateChain | .invalidFormat | .invalidCommonName | .noRootCertificateInstalled | .expired
  | .storeMaxLengthExceeded => "Rejected"
  | .writeError => "Failed"
  | .accepted => "Accepted"

/-- `to_ocpp_v2(DeleteCertificateResult)`, l.78-89, and the text of the value. In 1.6 `delete_certificate_result_to_string`
(common/types.cpp l.925-936) and `string_to_delete_certificate_status_enum_type` (v16/ocpp_enums.cpp l.444-456): the same. -/
def DeleteRes.wire : DeleteRes → String
  | .accepted => "Accepted"
  | .failed => "Failed"
  | .notFound => "NotFound"

/-- A hash on the wire. -/
structure HashW where
  alg : String
  name : String
  key : String
  serial : String
deriving DecidableEq, Repr

/-- An entry of GetInstalledCertificateIdsResponse on the wire; OCPP 1.6 has no type and no children. -/
structure ChainW where
  type : Option String
  hash : HashW
  children : Option (List HashW)
deriving DecidableEq, Repr

/-- `to_ocpp_v2(CertificateHashDataType)`, l.91-98. -/
def Hash.wire (h : Hash) : HashW := ⟨h.alg.wire, h.name, h.key, h.serial⟩

/-- The children of `to_ocpp_v2(CertificateHashDataChain)`: left out if there are none. -/
def childrenWire : Option (List Hash) → Option (List HashW)
  | some (h :: l) => some ((h :: l).map Hash.wire)
  | _ => none

/-- `to_ocpp_v2(CertificateHashDataChain)`, l.100-112. -/
def Chain.wire (c : Chain) : ChainW := ⟨some c.type.wire, c.hash.wire, childrenWire c.children⟩

/-! ## Handlers -/

/-- Requests to the security module. -/
inductive Ask
  | install (cert : String) (t : LCa)
  | leaf (chain : String) (t : LLeaf)
  | delete (h : LHash)
  | list (ts : List LType)
deriving DecidableEq, Repr

/-- What happens: requests to the module, the answer of the station, a security event (with whether it is for the CSMS), the
connection is made anew, the OCSP results are renewed, the links to the V2G certificates are renewed, and exceptions. -/
inductive Ev
  | asked (a : Ask)
  | answer (status : String) (certs : Option (List ChainW))
  | secEvent (type : String) (critical : Bool)
  | reconnect
  | ocsp
  | links
  | exc (e : Exc)
deriving DecidableEq, Repr

/-- `EvseSecurityImpl::get_installed_certificates`, evse_security_impl.cpp l.65-82: what is asked for and what is returned. -/
def installed (m : Module) (ts : List CType) : List Ev × Except Exc (List Chain) :=
  match ts.mapM CType.lib with
  | .error e => ([], .error e)
  | .ok lts => ([.asked (.list lts)], (m.list lts).mapM LChain.ocpp)

/-- The end of `handle_get_installed_certificate_ids_req`, security.cpp l.363-378. -/
def listed (f : Chain → ChainW) : List Ev × Except Exc (List Chain) → List Ev
  | (evs, .error e) => evs ++ [.exc e]
  | (evs, .ok []) => evs ++ [.answer "NotFound" none]
  | (evs, .ok (c :: l)) => evs ++ [.answer "Accepted" (some ((c :: l).map f))]

/-- The types asked for in `handle_get_installed_certificate_ids_req`, security.cpp l.348-361: all if none are named. -/
def types2 : Option (List IdUse) → List CType
  | some l => l.map IdUse.ocpp
  | none => [.csmsRoot, .mfRoot, .moRoot, .v2gChain, .v2gRoot]

/-- `handle_get_installed_certificate_ids_req`, security.cpp l.343-379. -/
def getInstalled2 (m : Module) (ts : Option (List IdUse)) : List Ev :=
  listed Chain.wire (installed m (types2 ts))

/-- `EvseSecurityImpl::install_ca_certificate`, evse_security_impl.cpp l.27-31. -/
def installCa (m : Module) (cert : String) (t : Ca) : List Ev × Except Exc InstallRes :=
  match t.lib with
  | .error e => ([], .error e)
  | .ok lt => ([.asked (.install cert lt)], .ok (m.install cert lt).ocpp)

/-- `handle_install_certificate_req`, security.cpp l.381-409. -/
def install2 (m : Module) (p : Policy) (t : CertType) (cert : String) : List Ev :=
  if !mayInstall p t then [.answer "Rejected" none]
  else
    match installCa m cert (useCa t) with
    | (evs, .error e) => evs ++ [.exc e]
    | (evs, .ok r) =>
      evs ++ (if r.wire = "Accepted" then [.secEvent "ReconfigurationOfSecurityParameters" false] else []) ++ [.answer r.wire none]

/-- `handle_delete_certificate_req`, security.cpp l.411-432. -/
def delete2 (m : Module) (h : Hash) : List Ev :=
  let r := (m.delete h.lib).ocpp
  [.asked (.delete h.lib)] ++
    (if r.wire = "Accepted" then [.secEvent "ReconfigurationOfSecurityParameters" false] else []) ++ [.answer r.wire none]

/-- `EvseSecurityImpl::update_leaf_certificate`, evse_security_impl.cpp l.38-42. -/
def updateLeaf (m : Module) (chain : String) (u : Signing) : List Ev × Except Exc InstallRes :=
  match u.lib with
  | .error e => ([], .error e)
  | .ok lt => ([.asked (.leaf chain lt)], .ok (m.leaf chain lt).ocpp)

/-- The kind of certificate in `handle_certificate_signed_req`, security.cpp l.244-249. -/
def signingUse : Option SigningUse → Signing
  | none | some .chargingStation => .chargingStation
  | some _ => .v2g

/-- What follows the result in `handle_certificate_signed_req`, security.cpp l.253-291. `links`: UpdateCertificateSymlinks;
`profile`: the security profile. -/
def afterSigned2 (u : Signing) (links : Bool) (profile : Int) (r : InstallRes) : List Ev :=
  let st := if r = .accepted then "Accepted" else "Rejected"
  (if r = .accepted ∧ u = .v2g then [.ocsp] else []) ++ (if u = .v2g ∧ links = true then [.links] else []) ++
    [.answer st none] ++ (if r ≠ .accepted then [.secEvent "InvalidChargingStationCertificate" true] else []) ++
    (if st = "Accepted" ∧ u = .chargingStation ∧ profile = 3 then
      [.reconnect, .secEvent "ReconfigurationOfSecurityParameters" false] else [])

/-- `handle_certificate_signed_req`, security.cpp l.233-292 (the state of the signing request: `Security`, C43). -/
def certificateSigned2 (m : Module) (t : Option SigningUse) (chain : String) (links : Bool) (profile : Int) : List Ev :=
  match updateLeaf m chain (signingUse t) with
  | (evs, .error e) => evs ++ [.exc e]
  | (evs, .ok r) => evs ++ afterSigned2 (signingUse t) links profile r

/-! ### OCPP 1.6 -/

/-- `handleCertificateSignedRequest`, v16/charge_point_impl.cpp l.2874-2904. -/
def certificateSigned16 (m : Module) (chain : String) (profile : Int) : List Ev :=
  match updateLeaf m chain .chargingStation with
  | (evs, .error e) => evs ++ [.exc e]
  | (evs, .ok r) =>
    evs ++ [.answer (if r = .accepted then "Accepted" else "Rejected") none] ++
      (if r = .accepted then [] else [.secEvent "InvalidChargePointCertificate" true]) ++
      (if r = .accepted ∧ profile = 3 then [.reconnect] else [])

/-- The types asked for in `handleGetInstalledCertificateIdsRequest`, l.2911-2919. -/
def types16 : Use16 → List CType
  | .centralSystemRoot => [.csmsRoot]
  | .manufacturerRoot => [.mfRoot]

/-- `handleGetInstalledCertificateIdsRequest`, l.2906-2938: the hash only (a conversion through JSON, C106). -/
def getInstalled16 (m : Module) (t : Use16) : List Ev :=
  listed (fun c => ⟨none, c.hash.wire, none⟩) (installed m (types16 t))

/-- `handleDeleteCertificateRequest`, l.2940-2953. -/
def delete16 (m : Module) (h : Hash) : List Ev :=
  [.asked (.delete h.lib), .answer (m.delete h.lib).ocpp.wire none]

/-- The type in `handleInstallCertificateRequest`, l.2959-2964. -/
def ca16 : Use16 → Ca
  | .centralSystemRoot => .csms
  | .manufacturerRoot => .mf

/-- The status of the answer in `handleInstallCertificateRequest`, l.2968-2974. -/
def install16Status (r : InstallRes) : String :=
  if r = .accepted then "Accepted" else if r = .writeError then "Failed" else "Rejected"

/-- `handleInstallCertificateRequest`, l.2955-2984: the security event is explicitly not critical. -/
def install16 (m : Module) (t : Use16) (cert : String) : List Ev :=
  match installCa m cert (ca16 t) with
  | (evs, .error e) => evs ++ [.exc e]
  | (evs, .ok r) =>
    evs ++ [.answer (install16Status r) none] ++
      (if install16Status r = "Rejected" then [.secEvent "InvalidCentralSystemCertificate" false] else [])

/-! ### Plug&Charge through DataTransfer (OCPP 1.6)

The `data` of the DataTransfer.req is the request, of which `none` says that it is missing or cannot be read: the answer is then
`Rejected` without data. The answer has the status of the DataTransfer.conf and, in `data`, the response. -/

/-- Effects with the answers of DataTransfer: status, and the response in `data`. -/
inductive PEv
  | ev (e : Ev)
  | dt (status : String) (data : Option (String × Option (List ChainW)))
deriving DecidableEq, Repr

/-- An answer or exception of a handler, wrapped by the DataTransfer handlers: exceptions are caught and answered 'Rejected'. -/
def wrap : Ev → PEv
  | .answer st c => .dt "Accepted" (some (st, c))
  | .exc _ => .dt "Rejected" none
  | e => .ev e

/-- `handle_data_transfer_pnc_get_installed_certificates`, l.4104-4155: types that are left out are none. -/
def getInstalledP (m : Module) : Option (Option (List IdUse)) → List PEv
  | none => [.dt "Rejected" none]
  | some ts => (listed Chain.wire (installed m ((ts.getD []).map IdUse.ocpp))).map wrap

/-- `handle_data_transfer_delete_certificate`, l.4157-4185. -/
def deleteP (m : Module) : Option Hash → List PEv
  | none => [.dt "Rejected" none]
  | some h => (delete16 m h).map wrap

/-- The request and the answer of `handle_data_transfer_install_certificate`. -/
def installPEvs (m : Module) (t : CertType) (cert : String) : List Ev :=
  match installCa m cert (useCa t) with
  | (evs, .error e) => evs ++ [.exc e]
  | (evs, .ok r) => evs ++ [.answer r.wire none]

/-- `handle_data_transfer_install_certificate`, l.4187-4216. -/
def installP (m : Module) : Option (CertType × String) → List PEv
  | none => [.dt "Rejected" none]
  | some (t, cert) => (installPEvs m t cert).map wrap

/-- Whether the chain is too long: `static_cast<size_t>(max) < size`, l.4063-4066; a negative maximum becomes huge. -/
def tooLong (max : Option Int) (chain : String) : Bool :=
  match max with
  | none => false
  | some n => (if n < 0 then n.toNat + 2 ^ 64 - n.natAbs else n.toNat) < chain.utf8ByteSize

/-- What follows the result in `handle_data_transfer_pnc_certificate_signed`, l.4079-4092. The security event has no explicit
criticality, and its name is not critical in 1.6. -/
def afterSignedP (ok : Bool) : List PEv :=
  if ok then [.dt "Accepted" (some ("Accepted", none)), .ev .ocsp]
  else [.dt "Accepted" (some ("Rejected", none)), .ev (.secEvent "InvalidChargePointCertificate" false)]

/-- `handle_data_transfer_pnc_certificate_signed`, l.4037-4102: `max` is CertificateSignedMaxChainSize. -/
def certificateSignedP (m : Module) (max : Option Int) : Option (Option SigningUse × String) → List PEv
  | none => [.dt "Rejected" none]
  | some (t, chain) =>
    if t ≠ none ∧ t ≠ some .v2g then afterSignedP false
    else if tooLong max chain = true then afterSignedP false
    else
      match updateLeaf m chain .v2g with
      | (evs, .error _) => evs.map .ev ++ [.dt "Rejected" none]
      | (evs, .ok r) => evs.map .ev ++ afterSignedP (decide (r = .accepted))

end Verif.CertOps
