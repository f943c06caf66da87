import Verif.DeviceModel.Model
/-!
The configuration of an OCPP 1.6 station: GetConfiguration, ChangeConfiguration, the file with the changes, starting again, and the switch of the security profile.
lib/ocpp/v16/charge_point_configuration.cpp ("conf"), lib/ocpp/v16/charge_point_impl.cpp ("impl"), config/v16/profile_schemas/*.json ("schemas").

Simplifications: a text is a list of characters, `bytes` is its length in UTF-8.  JSON values, time stamps and the supported measurands are read by functions of the
environment.  MeterPublicKey[n] (read only) is left out.  The configuration file given by the application has all required keys of the sections that are used, so that
the getters of required keys do not throw.
-/

namespace Verif.Conf16

abbrev Text := List Char

/-- Length of a text as `std::string`. -/
def bytes (t : Text) : Nat := (t.map (fun c => c.utf8Size)).sum

/-- `iequals`, lib/ocpp/common/utils.cpp l.15-17. -/
def ciEq (a b : Text) : Bool := a.map Char.toLower == b.map Char.toLower

/-- `SupportedFeatureProfiles`; also the name of a section of the configuration. -/
inductive Prof
  | internal
  | core
  | security
  | pnc
  | smart
  | localList
  | firmware
  | price
  | reservation
  | custom
  deriving DecidableEq, Repr

/-- A JSON value: what `dump(2)` gives, and whether the schema of its key admits it. -/
structure J where
  shown : Text
  good : Bool
  deriving DecidableEq, Repr

/-- A value of the configuration. -/
inductive Val
  | bool (b : Bool)
  | int (n : Int)
  | text (t : Text)
  | list (l : List Text)
  | json (j : J)
  deriving DecidableEq, Repr

/-- Type and limits in the schemas: the limits of a string count characters (json-schema-validator: UTF-8 code points). -/
inductive Ty
  | bool
  | int (lo hi : Option Int)
  | str (lo : Nat) (hi : Option Nat)
  | list
  | obj
  deriving DecidableEq, Repr

/-- Whether GetConfiguration reports a key as read only; two keys take this from the schemas. -/
inductive Ro
  | yes
  | no
  | uri
  | unlock
  deriving DecidableEq, Repr

/-- How `set` treats a key. -/
inductive Rule
  | none                                    -- no branch
  | bool                                    -- `isBool`, then `string_to_bool`
  | boolAny                                 -- `string_to_bool` only
  | unlock                                  -- UnlockConnectorOnEVSideDisconnect
  | nat (lo : Int) (hi : Option Int)        -- `is_positive_integer`
  | phases                                  -- `stoi`, from 1 to 3
  | text (lo : Nat) (hi : Option Nat)       -- length in bytes
  | rotation
  | measurands
  | purposes
  | evseIds
  | json
  | offset
  | future
  | uri
  | profile                                 -- SecurityProfile
  deriving DecidableEq, Repr

/-- When `set` answers NotSupported. -/
inductive Guard
  | none
  | absent
  | profile
  deriving DecidableEq, Repr

/-- A key. -/
structure Key where
  name : Text
  sect : Prof
  gated : Bool       -- `get` looks at it only if the feature profile is supported
  ty : Ty
  ro : Ro
  rule : Rule
  guard : Guard
  always : Bool      -- reported although it has no value
  deriving DecidableEq, Repr

/-- The keys of `get`, conf l.3382-3775, in this order; type and limits: schemas; the line is that of the `…KeyValue` function; rule and guard: `set`, conf l.3826-4320. -/
def table : List Key :=
  [⟨"ChargePointId".toList, .internal, false, (.str 1 none), .yes, .none, .none, false⟩,  -- l.651
  ⟨"CentralSystemURI".toList, .internal, false, (.str 1 none), .uri, .uri, .none, false⟩,  -- l.659
  ⟨"ChargeBoxSerialNumber".toList, .internal, false, (.str 1 (some 25)), .yes, .none, .none, false⟩,  -- l.667
  ⟨"ChargePointModel".toList, .internal, false, (.str 1 (some 20)), .yes, .none, .none, false⟩,  -- l.675
  ⟨"ChargePointSerialNumber".toList, .internal, false, (.str 1 (some 25)), .yes, .none, .none, false⟩,  -- l.683
  ⟨"ChargePointVendor".toList, .internal, false, (.str 1 (some 20)), .yes, .none, .none, false⟩,  -- l.696
  ⟨"FirmwareVersion".toList, .internal, false, (.str 1 (some 50)), .yes, .none, .none, false⟩,  -- l.704
  ⟨"ICCID".toList, .internal, false, (.str 1 (some 20)), .yes, .none, .none, false⟩,  -- l.712
  ⟨"IMSI".toList, .internal, false, (.str 1 (some 20)), .yes, .none, .none, false⟩,  -- l.725
  ⟨"MeterSerialNumber".toList, .internal, false, (.str 1 (some 25)), .yes, .none, .none, false⟩,  -- l.738
  ⟨"MeterType".toList, .internal, false, (.str 1 (some 25)), .yes, .none, .none, false⟩,  -- l.751
  ⟨"SupportedCiphers12".toList, .internal, false, .list, .yes, .none, .none, false⟩,  -- l.872
  ⟨"SupportedCiphers13".toList, .internal, false, .list, .yes, .none, .none, false⟩,  -- l.880
  ⟨"RetryBackoffRandomRange".toList, .internal, false, (.int none none), .no, .none, .none, false⟩,  -- l.982
  ⟨"RetryBackoffRepeatTimes".toList, .internal, false, (.int none none), .no, .none, .none, false⟩,  -- l.999
  ⟨"RetryBackoffWaitMinimum".toList, .internal, false, (.int none none), .no, .none, .none, false⟩,  -- l.1016
  ⟨"AuthorizeConnectorZeroOnConnectorOne".toList, .internal, false, .bool, .yes, .none, .none, false⟩,  -- l.764
  ⟨"LogMessages".toList, .internal, false, .bool, .yes, .none, .none, false⟩,  -- l.772
  ⟨"LogMessagesRaw".toList, .internal, false, .bool, .yes, .none, .none, false⟩,  -- l.780
  ⟨"LogMessagesFormat".toList, .internal, false, .list, .yes, .none, .none, false⟩,  -- l.788
  ⟨"SupportedChargingProfilePurposeTypes".toList, .internal, false, .list, .yes, .none, .none, false⟩,  -- l.828
  ⟨"IgnoredProfilePurposesOffline".toList, .internal, false, (.str 0 none), .no, .purposes, .none, false⟩,  -- l.844
  ⟨"MaxCompositeScheduleDuration".toList, .internal, false, (.int none none), .yes, .none, .none, false⟩,  -- l.864
  ⟨"CompositeScheduleDefaultLimitAmps".toList, .internal, false, (.int (some 0) none), .no, (.nat 0 none), .absent, false⟩,  -- l.515
  ⟨"CompositeScheduleDefaultLimitWatts".toList, .internal, false, (.int (some 0) none), .no, (.nat 0 none), .absent, false⟩,  -- l.541
  ⟨"CompositeScheduleDefaultNumberPhases".toList, .internal, false, (.int (some 1) (some 3)), .no, .phases, .absent, false⟩,  -- l.567
  ⟨"SupplyVoltage".toList, .internal, false, (.int (some 0) none), .no, (.nat 0 none), .absent, false⟩,  -- l.593
  ⟨"WebsocketPingPayload".toList, .internal, false, (.str 0 none), .yes, .none, .none, false⟩,  -- l.957
  ⟨"WebsocketPongTimeout".toList, .internal, false, (.int none none), .yes, .none, .none, false⟩,  -- l.965
  ⟨"UseSslDefaultVerifyPaths".toList, .internal, false, .bool, .yes, .none, .none, false⟩,  -- l.888
  ⟨"VerifyCsmsCommonName".toList, .internal, false, .bool, .yes, .none, .none, false⟩,  -- l.896
  ⟨"VerifyCsmsAllowWildcards".toList, .internal, false, .bool, .yes, .bool, .none, false⟩,  -- l.904
  ⟨"OcspRequestInterval".toList, .internal, false, (.int (some 86400) none), .no, (.nat 86400 none), .none, false⟩,  -- l.2535
  ⟨"SeccLeafSubjectCommonName".toList, .internal, false, (.str 7 (some 64)), .no, (.text 7 (some 64)), .absent, false⟩,  -- l.2558
  ⟨"SeccLeafSubjectCountry".toList, .internal, false, (.str 2 (some 2)), .no, (.text 2 (some 2)), .absent, false⟩,  -- l.2586
  ⟨"SeccLeafSubjectOrganization".toList, .internal, false, (.str 0 (some 64)), .no, (.text 0 (some 64)), .absent, false⟩,  -- l.2614
  ⟨"ConnectorEvseIds".toList, .internal, false, (.str 7 (some 1000)), .no, .evseIds, .absent, false⟩,  -- l.2642
  ⟨"AllowChargingProfileWithoutStartSchedule".toList, .internal, false, .bool, .no, .boolAny, .absent, false⟩,  -- l.2670
  ⟨"WaitForStopTransactionsOnResetTimeout".toList, .internal, false, (.int (some 0) none), .no, (.nat 0 none), .none, false⟩,  -- l.2694
  ⟨"HostName".toList, .internal, false, (.str 1 none), .yes, .none, .none, false⟩,  -- l.1929
  ⟨"SupportedMeasurands".toList, .internal, false, (.str 0 none), .yes, .none, .none, false⟩,  -- l.912
  ⟨"MaxMessageSize".toList, .internal, false, (.int (some 32000) none), .yes, .none, .none, false⟩,  -- l.924
  ⟨"QueueAllMessages".toList, .internal, false, .bool, .yes, .none, .none, false⟩,  -- l.1182
  ⟨"MessageTypesDiscardForQueueing".toList, .internal, false, (.str 0 none), .yes, .none, .none, false⟩,  -- l.1202
  ⟨"MessageQueueSizeThreshold".toList, .internal, false, (.int (some 1) none), .yes, .none, .none, false⟩,  -- l.1223
  ⟨"StopTransactionIfUnlockNotSupported".toList, .internal, false, .bool, .no, .bool, .none, false⟩,  -- l.949
  ⟨"AllowOfflineTxForUnknownId".toList, .core, false, .bool, .no, .bool, .absent, false⟩,  -- l.1250
  ⟨"AuthorizationCacheEnabled".toList, .core, false, .bool, .no, .bool, .absent, false⟩,  -- l.1277
  ⟨"AuthorizeRemoteTxRequests".toList, .core, false, .bool, .no, .boolAny, .none, false⟩,  -- l.1298
  ⟨"BlinkRepeat".toList, .core, false, (.int (some 0) none), .no, (.nat 0 none), .absent, false⟩,  -- l.1320
  ⟨"ClockAlignedDataInterval".toList, .core, false, (.int (some 0) none), .no, (.nat 0 none), .none, false⟩,  -- l.1341
  ⟨"ConnectionTimeOut".toList, .core, false, (.int (some 0) none), .no, (.nat 0 none), .none, false⟩,  -- l.1357
  ⟨"ConnectorPhaseRotation".toList, .core, false, (.str 0 none), .no, .rotation, .none, false⟩,  -- l.1373
  ⟨"ConnectorPhaseRotationMaxLength".toList, .core, false, (.int (some 0) none), .yes, .none, .none, false⟩,  -- l.1389
  ⟨"GetConfigurationMaxKeys".toList, .core, false, (.int (some 0) none), .yes, .none, .none, false⟩,  -- l.1406
  ⟨"HeartbeatInterval".toList, .core, false, (.int (some 0) none), .no, (.nat 0 none), .none, false⟩,  -- l.1422
  ⟨"LightIntensity".toList, .core, false, (.int (some 0) (some 100)), .no, (.nat 0 (some 100)), .absent, false⟩,  -- l.1444
  ⟨"LocalAuthorizeOffline".toList, .core, false, .bool, .no, .bool, .none, false⟩,  -- l.1465
  ⟨"LocalPreAuthorize".toList, .core, false, .bool, .no, .bool, .none, false⟩,  -- l.1481
  ⟨"MaxEnergyOnInvalidId".toList, .core, false, (.int (some 0) none), .no, (.nat 0 none), .absent, false⟩,  -- l.1503
  ⟨"MeterValuesAlignedData".toList, .core, false, (.str 0 none), .no, .measurands, .none, false⟩,  -- l.1528
  ⟨"MeterValuesAlignedDataMaxLength".toList, .core, false, (.int (some 0) none), .yes, .none, .none, false⟩,  -- l.1547
  ⟨"MeterValuesSampledData".toList, .core, false, (.str 0 none), .no, .measurands, .none, false⟩,  -- l.1572
  ⟨"MeterValuesSampledDataMaxLength".toList, .core, false, (.int (some 0) none), .yes, .none, .none, false⟩,  -- l.1591
  ⟨"MeterValueSampleInterval".toList, .core, false, (.int (some 0) none), .no, (.nat 0 none), .none, false⟩,  -- l.1612
  ⟨"MinimumStatusDuration".toList, .core, false, (.int (some 0) none), .no, (.nat 0 none), .absent, false⟩,  -- l.1634
  ⟨"NumberOfConnectors".toList, .core, false, (.int (some 0) none), .yes, .none, .none, false⟩,  -- l.1651
  ⟨"ReserveConnectorZeroSupported".toList, .reservation, false, .bool, .yes, .none, .none, false⟩,  -- l.1669
  ⟨"ResetRetries".toList, .core, false, (.int (some 0) none), .no, (.nat 0 none), .none, false⟩,  -- l.1690
  ⟨"StopTransactionOnEVSideDisconnect".toList, .core, false, .bool, .yes, .none, .none, false⟩,  -- l.1706
  ⟨"StopTransactionOnInvalidId".toList, .core, false, .bool, .no, .bool, .none, false⟩,  -- l.1727
  ⟨"StopTxnAlignedData".toList, .core, false, (.str 0 none), .no, .measurands, .none, false⟩,  -- l.1747
  ⟨"StopTxnAlignedDataMaxLength".toList, .core, false, (.int (some 0) none), .yes, .none, .none, false⟩,  -- l.1763
  ⟨"StopTxnSampledData".toList, .core, false, (.str 0 none), .no, .measurands, .none, false⟩,  -- l.1789
  ⟨"StopTxnSampledDataMaxLength".toList, .core, false, (.int (some 0) none), .yes, .none, .none, false⟩,  -- l.1805
  ⟨"SupportedFeatureProfiles".toList, .core, false, (.str 0 none), .yes, .none, .none, false⟩,  -- l.1822
  ⟨"SupportedFeatureProfilesMaxLength".toList, .core, false, (.int (some 0) none), .yes, .none, .none, false⟩,  -- l.1841
  ⟨"TransactionMessageAttempts".toList, .core, false, (.int (some 0) none), .no, (.nat 0 none), .none, false⟩,  -- l.1862
  ⟨"TransactionMessageRetryInterval".toList, .core, false, (.int (some 0) none), .no, (.nat 0 none), .none, false⟩,  -- l.1878
  ⟨"UnlockConnectorOnEVSideDisconnect".toList, .core, false, .bool, .unlock, .unlock, .none, false⟩,  -- l.1894
  ⟨"WebSocketPingInterval".toList, .core, false, (.int (some 0) none), .no, (.nat 0 none), .absent, false⟩,  -- l.1916
  ⟨"SupportedFileTransferProtocols".toList, .firmware, true, (.str 0 none), .yes, .none, .none, false⟩,  -- l.1966
  ⟨"ISO15118CertificateManagementEnabled".toList, .pnc, true, .bool, .no, .boolAny, .none, false⟩,  -- l.2402
  ⟨"ISO15118PnCEnabled".toList, .pnc, true, .bool, .no, .boolAny, .none, false⟩,  -- l.2419
  ⟨"CentralContractValidationAllowed".toList, .pnc, true, .bool, .no, .boolAny, .absent, false⟩,  -- l.2441
  ⟨"CertSigningWaitMinimum".toList, .pnc, true, (.int (some 0) none), .no, (.nat 0 none), .absent, false⟩,  -- l.2469
  ⟨"CertSigningRepeatTimes".toList, .pnc, true, (.int (some 0) none), .no, (.nat 0 none), .absent, false⟩,  -- l.2496
  ⟨"ContractValidationOffline".toList, .pnc, true, .bool, .no, .boolAny, .none, false⟩,  -- l.2518
  ⟨"ChargeProfileMaxStackLevel".toList, .smart, true, (.int (some 0) none), .yes, .none, .none, false⟩,  -- l.1984
  ⟨"ChargingScheduleAllowedChargingRateUnit".toList, .smart, true, (.str 0 none), .yes, .none, .none, false⟩,  -- l.1995
  ⟨"ChargingScheduleMaxPeriods".toList, .smart, true, (.int (some 0) none), .yes, .none, .none, false⟩,  -- l.2020
  ⟨"ConnectorSwitch3to1PhaseSupported".toList, .smart, true, .bool, .yes, .none, .none, false⟩,  -- l.2036
  ⟨"MaxChargingProfilesInstalled".toList, .smart, true, (.int (some 0) none), .yes, .none, .none, false⟩,  -- l.2053
  ⟨"AdditionalRootCertificateCheck".toList, .security, true, .bool, .yes, .none, .none, false⟩,  -- l.2070
  ⟨"CertificateSignedMaxChainSize".toList, .security, true, (.int none (some 10000)), .yes, .none, .none, false⟩,  -- l.2247
  ⟨"CertificateStoreMaxLength".toList, .security, true, (.int (some 0) none), .yes, .none, .none, false⟩,  -- l.2269
  ⟨"CpoName".toList, .security, true, (.str 0 none), .no, (.text 0 none), .none, true⟩,  -- l.2296
  ⟨"SecurityProfile".toList, .security, true, (.int (some 0) (some 3)), .no, .profile, .none, false⟩,  -- l.2321
  ⟨"DisableSecurityEventNotifications".toList, .security, true, .bool, .no, .boolAny, .none, false⟩,  -- l.2339
  ⟨"LocalAuthListEnabled".toList, .localList, true, .bool, .no, .bool, .profile, false⟩,  -- l.2359
  ⟨"LocalAuthListMaxLength".toList, .localList, true, (.int (some 0) none), .yes, .none, .none, false⟩,  -- l.2371
  ⟨"SendLocalListMaxLength".toList, .localList, true, (.int (some 0) none), .yes, .none, .none, false⟩,  -- l.2383
  ⟨"CustomDisplayCostAndPrice".toList, .price, true, .bool, .yes, .none, .none, false⟩,  -- l.2712
  ⟨"NumberOfDecimalsForCostValues".toList, .price, true, (.int none none), .yes, .none, .none, false⟩,  -- l.2730
  ⟨"DefaultPrice".toList, .price, true, .obj, .no, .json, .none, false⟩,  -- l.2972
  ⟨"TimeOffset".toList, .price, true, (.str 1 (some 10)), .no, .offset, .none, false⟩,  -- l.3002
  ⟨"NextTimeOffsetTransitionDateTime".toList, .price, true, (.str 1 (some 40)), .no, .future, .none, false⟩,  -- l.3036
  ⟨"TimeOffsetNextTransition".toList, .price, true, (.str 1 (some 40)), .no, .offset, .none, false⟩,  -- l.3066
  ⟨"CustomIdleFeeAfterStop".toList, .price, true, .bool, .no, .boolAny, .none, false⟩,  -- l.3092
  ⟨"SupportedLanguages".toList, .price, true, (.str 1 none), .yes, .none, .none, false⟩,  -- l.3135
  ⟨"CustomMultiLanguageMessages".toList, .price, true, .bool, .yes, .none, .none, false⟩,  -- l.3114
  ⟨"Language".toList, .price, true, (.str 1 none), .yes, (.text 0 none), .none, false⟩,  -- l.3262
  ⟨"WaitForSetUserPriceTimeout".toList, .price, true, (.int (some 0) (some 30000)), .no, (.nat 0 (some 30000)), .none, false⟩]  -- l.3171

/-- Everything outside the configuration. -/
structure Env where
  sup : Prof → Bool                    -- `supported_feature_profiles`
  uriRo : Bool                         -- schema of CentralSystemURI
  unlockRo : Bool                      -- schema of UnlockConnectorOnEVSideDisconnect
  measurandsOk : Text → Bool           -- `measurands_supported`, conf l.1104-1136
  parse : Text → Option J              -- `json::parse`; `none`: it throws
  priceText : J → Option J             -- the part of a price text that is reported, conf l.2743-2777; `none`: there is no "priceText"
  date : Text → Option Int             -- constructor of `DateTime`; `none`: it throws
  customRo : Text → Option Bool        -- "readOnly" in the custom schema; `none`: missing
  customConv : Text → Text → Option Val -- `setCustomKey`, conf l.3300-3311: conversion according to the type in the schema; `none`: refused
  customOk : (Text → Option Val) → Bool -- the custom schema admits the section
  csmsRoot : Bool                      -- a CSMS root certificate is installed
  clientCert : Bool                    -- a client certificate is installed

/-- A configuration: the keys of `table` and AuthorizationKey, the custom keys, and the price texts by language. -/
structure Maps where
  keys : Text → Option Val
  cust : Text → Option Val
  price : Option (List (Text × J))

/-- `switch_security_profile_callback`: a switch that was asked for, or the way back. -/
inductive Cb
  | new (p : Int)
  | back (p : Int)
  deriving DecidableEq, Repr

/-- The station. -/
structure St where
  base : Maps                -- the configuration given by the application, with the defaults of the schemas
  cfg : Maps                 -- `config`
  user : Option Maps         -- the file with the changes; `none`: it cannot be parsed
  cb : Option Cb             -- `switch_security_profile_callback`

/-- What happens when the file is written: conf l.226-247 and the stream, whose errors are not looked at. -/
inductive Write
  | ok
  | fsError     -- a `filesystem_error`, which is caught
  | full        -- no space: an empty or incomplete file is renamed
  deriving DecidableEq, Repr

def upd (f : Text → Option Val) (k : Text) (v : Val) : Text → Option Val := fun x => if x = k then some v else f x

/-- A setter: `config` is changed, then `setInUserConfig` is called (conf l.226-247).  True: `get_user_config` throws. -/
def store (s : St) (f : Maps → Maps) (w : Write) : St × Bool :=
  let s := { s with cfg := f s.cfg }
  match s.user with
  | none => (s, true)
  | some u => match w with
    | .ok => ({ s with user := some (f u) }, false)
    | .fsError => (s, false)
    | .full => ({ s with user := none }, false)

/-! ## Reading -/

/-- The text reported for a value. -/
def Val.show : Val → Text
  | .bool b => if b then "true".toList else "false".toList
  | .int n => (toString n).toList
  | .text t => t
  | .list l => List.intercalate [','] l
  | .json j => j.shown

/-- What `get` does. -/
inductive Got
  | unknown
  | kv (key : Text) (ro : Bool) (value : Option Text)
  | throws
  deriving DecidableEq, Repr

/-- A `KeyValue`: include/ocpp/v16/ocpp_types.hpp l.82-86; its value has at most 500 bytes (include/ocpp/common/string.hpp l.46-64). -/
def mkKv (key : Text) (ro : Bool) (value : Option Text) : Got :=
  match value with
  | some t => if bytes t > 500 then .throws else .kv key ro (some t)
  | none => .kv key ro none

/-- The read only flag. -/
def roOf (env : Env) : Ro → Bool
  | .yes => true
  | .no => false
  | .uri => env.uriRo
  | .unlock => env.unlockRo

/-- The `…KeyValue` function of a key. -/
def report (env : Env) (s : St) (e : Key) : Got :=
  match s.cfg.keys e.name with
  | some v => mkKv e.name (roOf env e.ro) (some v.show)
  | none => if e.always then mkKv e.name (roOf env e.ro) none else .unknown

/-- `split_string`, lib/ocpp/common/utils.cpp l.81-94: nothing after a last separator, nothing at all for the empty text. -/
def splitOn (c : Char) : Text → Text → List Text
  | acc, [] => if acc.isEmpty then [] else [acc]
  | acc, x :: r => if x = c then acc :: splitOn c [] r else splitOn c (acc ++ [x]) r

def pieces (c : Char) (t : Text) : List Text := splitOn c [] t

/-- `trim_string`, lib/ocpp/common/utils.cpp l.96-103. -/
def trim (t : Text) : Text := if t.all (· == ' ') then t else ((t.dropWhile (· == ' ')).reverse.dropWhile (· == ' ')).reverse

def pricePrefix : Text := "DefaultPriceText".toList

/-- `getDefaultPriceText` and `getDefaultPriceTextKeyValue`, conf l.2743-2777, l.2897-2913. -/
def reportPrice (env : Env) (s : St) (lang : Text) : Got :=
  match (s.cfg.price.getD []).find? (fun p => p.1 == lang) with
  | some p => mkKv (pricePrefix ++ ',' :: lang) false (some ((env.priceText p.2).map J.shown |>.getD []))
  | none => mkKv (pricePrefix ++ ',' :: lang) false (some [])

/-- `getCustomKeyValue`, conf l.3276-3296: exceptions make the key unknown. -/
def reportCustom (env : Env) (s : St) (key : Text) : Got :=
  match s.cfg.cust key, env.customRo key with
  | some v, some ro => match mkKv key ro (some v.show) with
    | .throws => .unknown
    | g => g
  | _, _ => .unknown

/-- CustomMultiLanguageMessages is true: conf l.3105-3112. -/
def multiLang (s : St) : Bool := s.cfg.keys "CustomMultiLanguageMessages".toList == some (.bool true)

/-- The entry of a key in `get`. -/
def entry (env : Env) (key : Text) : Option Key := table.find? (fun e => ciEq key e.name && (!e.gated || env.sup e.sect))

/-- `get`, conf l.3382-3785. -/
def get (env : Env) (s : St) (key : Text) : Got :=
  match entry env key with
  | some e => report env s e
  | none =>
    if env.sup .price && pricePrefix.isPrefixOf key && multiLang s && decide (1 < (pieces ',' key).length) then
      reportPrice env s ((pieces ',' key).getD 1 [])
    else if env.sup .custom then reportCustom env s key else .unknown

/-! ## Changing -/

/-- `ConfigurationStatus`; `error`: an exception, which makes `message_callback` send a CALLERROR (impl l.1443-1482). -/
inductive Status
  | accepted
  | rejected
  | rebootRequired
  | notSupported
  | error
  deriving DecidableEq, Repr

/-- `std::stoi`: leading white space, sign, digits, whatever follows. -/
inductive Stoi
  | val (n : Int)
  | invalid
  | range
  deriving DecidableEq, Repr

/-- `isspace`. -/
def isSpace (c : Char) : Bool := c == ' ' || (9 ≤ c.toNat && c.toNat ≤ 13)

def stoi (t : Text) : Stoi :=
  let t := t.dropWhile isSpace
  let neg := t.head? == some '-'
  let ds := (if t.head? == some '-' || t.head? == some '+' then t.tail else t).takeWhile DM.isDigit
  let n : Int := if neg then - (DM.natOf ds : Int) else DM.natOf ds
  if ds.isEmpty then .invalid else if n < -2147483648 ∨ 2147483647 < n then .range else .val n

/-- `is_positive_integer`, lib/ocpp/common/utils.cpp l.33-43; both exceptions of `stoi` are caught by `set`. -/
def positive (t : Text) : Option Int :=
  if DM.isInteger t then
    match stoi t with
    | .val n => if n < 0 then none else some n
    | _ => none
  else none

def lower (t : Text) : Text := t.map Char.toLower

/-- `isBool`, conf l.2214-2218. -/
def isBool (t : Text) : Bool := lower t == "true".toList || lower t == "false".toList

/-- `string_to_bool`, lib/ocpp/common/types.cpp l.1198-1205. -/
def toBool (t : Text) : Bool := lower t == "true".toList

/-- `boost::split` at commas: an empty text has one piece. -/
def splitAll : Text → Text → List Text
  | acc, [] => [acc]
  | acc, x :: r => if x = ',' then acc :: splitAll [] r else splitAll (acc ++ [x]) r

/-- One element of ConnectorPhaseRotation that is neither NotApplicable nor Unknown: conf l.2157-2174. -/
def rotationElement (n : Int) (e : Text) : Bool :=
  decide (bytes e = 5) &&
  (match stoi (e.take 1) with
   | .val c => decide (0 ≤ c ∧ c ≤ n)
   | _ => false) &&
  ["RST".toList, "RTS".toList, "SRT".toList, "STR".toList, "TRS".toList, "TSR".toList].any (· == e.drop 2)

/-- `isConnectorPhaseRotationValid`, conf l.2138-2176; `n`: NumberOfConnectors. -/
def rotationOk (n : Int) (t : Text) : Bool :=
  (splitAll [] (t.filter (fun c => !isSpace c))).all (fun e =>
    (List.range (n + 1).toNat).any (fun i => e == (toString i).toList ++ ".NotApplicable".toList || e == (toString i).toList ++ ".Unknown".toList)
    || rotationElement n e)

/-- `checkTimeOffset`, conf l.2178-2211. -/
def offsetOk (t : Text) : Bool :=
  match pieces ':' t with
  | [h, m] => match stoi h, stoi m with
    | .val h, .val m => decide (-24 ≤ h ∧ h ≤ 24 ∧ 0 ≤ m ∧ m ≤ 59)
    | _, _ => false
  | _ => false

/-- `validate_connector_evse_ids`, conf l.1087-1101. -/
def evseIdsOk (t : Text) : Bool := decide (bytes t ≤ 1000) && (pieces ',' t).all (fun e => decide (7 ≤ bytes e ∧ bytes e ≤ 37))

/-- `setIgnoredProfilePurposesOffline`, conf l.484-502. -/
def purposesOk (t : Text) : Bool :=
  (pieces ',' t).all (fun e => ["ChargePointMaxProfile".toList, "TxDefaultProfile".toList, "TxProfile".toList].any (· == e))

def numberOfConnectors (s : St) : Int :=
  match s.cfg.keys "NumberOfConnectors".toList with
  | some (.int n) => n
  | _ => 0

/-- The value to store, or the answer. -/
inductive Res
  | val (v : Val)
  | no (a : Status)
  deriving DecidableEq, Repr

def orReject (b : Bool) (v : Val) : Res := if b then .val v else .no .rejected

/-- The checks of `set`, conf l.3826-4320, and of the setters it calls. -/
def check (env : Env) (s : St) (now : Int) (r : Rule) (t : Text) : Res :=
  match r with
  | .none => .no .rejected
  | .bool => orReject (isBool t) (.bool (toBool t))
  | .boolAny => .val (.bool (toBool t))
  | .unlock => orReject (isBool t && !env.unlockRo) (.bool (toBool t))
  | .nat lo hi => match positive t with
    | some n => orReject (decide (lo ≤ n) && (match hi with
        | some h => decide (n ≤ h)
        | none => true)) (.int n)
    | none => .no .rejected
  | .phases => match stoi t with
    | .val n => orReject (decide (0 < n ∧ n ≤ 3)) (.int n)
    | _ => .no .rejected
  | .text lo hi => orReject (decide (lo ≤ bytes t) && (match hi with
      | some h => decide (bytes t ≤ h)
      | none => true)) (.text t)
  | .rotation => orReject (rotationOk (numberOfConnectors s) t) (.text t)
  | .measurands => orReject (env.measurandsOk t) (.text t)
  | .purposes => orReject (purposesOk t) (.text t)
  | .evseIds => orReject (evseIdsOk t) (.text t)
  | .json => match env.parse t with
    | some j => .val (.json j)
    | none => .no .rejected
  | .offset => orReject (offsetOk t) (.text t)
  | .future => match env.date t with
    | some d => orReject (decide (now < d)) (.text t)
    | none => .no .error
  | .uri => .val (.text t)
  | .profile => .no .accepted

/-- A key is stored. -/
def storeKey (s : St) (name : Text) (v : Val) (w : Write) (a : Status) : St × Status :=
  let r := store s (fun m => { m with keys := upd m.keys name v }) w
  (r.1, if r.2 then .error else a)

/-- NotSupported by `set` itself. -/
def blocked (env : Env) (s : St) (e : Key) : Bool :=
  match e.guard with
  | .none => false
  | .absent => (s.cfg.keys e.name).isNone
  | .profile => !env.sup e.sect

/-- A branch of `set`. -/
def setKey (env : Env) (s : St) (now : Int) (e : Key) (t : Text) (w : Write) : St × Status :=
  if blocked env s e then (s, .notSupported)
  else match check env s now e.rule t with
    | .val v => storeKey s e.name v w (if e.rule = .uri then .rebootRequired else .accepted)
    | .no a => (s, a)

def authKey : Text := "AuthorizationKey".toList

def isHexDigit (c : Char) : Bool := DM.isDigit c || ('a'.toNat ≤ c.toNat && c.toNat ≤ 'f'.toNat) || ('A'.toNat ≤ c.toNat && c.toNat ≤ 'F'.toNat)

def hexVal (c : Char) : Nat :=
  if DM.isDigit c then c.toNat - '0'.toNat else if 'a'.toNat ≤ c.toNat then c.toNat - 'a'.toNat + 10 else c.toNat - 'A'.toNat + 10

/-- The loop of `hexToString`, conf l.2094-2102, over hexadecimal digits: two at a time, a last one alone. -/
def hexPairs : Text → Text
  | a :: b :: r => Char.ofNat (16 * hexVal a + hexVal b) :: hexPairs r
  | [a] => [Char.ofNat (hexVal a)]
  | [] => []

/-- `strtol` in base 16 of the first two characters, conf l.2098, l.2111, which can be anything: white space and a plus sign are skipped, the number ends at the first other
character.  Simplification: a minus sign gives 0, not a negative character; neither is printable. -/
def firstPair (a b : Char) : Nat :=
  if isHexDigit a then (if isHexDigit b then 16 * hexVal a + hexVal b else hexVal a)
  else if (isSpace a || a == '+') && isHexDigit b then hexVal b else 0

/-- `hexToString`, conf l.2094-2102, for at least two characters. -/
def hexToString : Text → Text
  | a :: b :: r => Char.ofNat (firstPair a b) :: hexPairs r
  | r => hexPairs r

/-- `isHexNotation`, conf l.2104-2120: only the characters from the third on have to be digits.  A second character of more than one byte puts a byte that is no digit in the
third place. -/
def isHexNotation : Text → Bool
  | a :: b :: r => decide (b.toNat < 128) && !r.isEmpty && r.all isHexDigit &&
      (hexToString (a :: b :: r)).all (fun c => (0x20 ≤ c.toNat && c.toNat ≤ 0x7e) || c.toNat == 0xa)
  | _ => false

/-- What `setAuthorizationKey` stores, conf l.2123-2136. -/
def decode (t : Text) : Text := if isHexNotation t then hexToString t else t

/-- The branch AuthorizationKey of `set`, conf l.3850-3857. -/
def setAuthKey (s : St) (t : Text) (w : Write) : St × Status :=
  if bytes t ≥ 8 then storeKey s authKey (.text (decode t)) w .accepted else (s, .rejected)

/-- The languages of SupportedLanguages. -/
def languages (s : St) : List Text :=
  match s.cfg.keys "SupportedLanguages".toList with
  | some (.text t) => pieces ',' t
  | _ => []

/-- An entry for a language is replaced or added. -/
def putPrice (l : List (Text × J)) (lang : Text) (j : J) : List (Text × J) :=
  match l with
  | [] => [(lang, j)]
  | p :: r => if p.1 == lang then (lang, j) :: r else p :: putPrice r lang j

/-- `setDefaultPriceText`, conf l.2819-2895: the whole object is stored. -/
def setPrice (env : Env) (s : St) (key t : Text) (w : Write) : St × Status :=
  if decide ((pieces ',' key).length ≤ 1) then (s, .rejected)
  else
    let lang := (pieces ',' key).getD 1 []
    if !(languages s).any (fun l => trim l == trim lang) then (s, .rejected)
    else match env.parse t with
      | none => (s, .error)
      | some j =>
        if (env.priceText j).isNone then (s, .rejected)
        else
          let l := putPrice (s.cfg.price.getD []) lang j
          let r := store s (fun m => { m with price := some l }) w
          (r.1, if r.2 then .error else .accepted)

/-- `setCustomKey`, conf l.3298-3329. -/
def setCustom (env : Env) (s : St) (key t : Text) (w : Write) : St × Status :=
  match reportCustom env s key with
  | .kv _ ro _ =>
    if ro then (s, .rejected)
    else match env.customConv key t with
      | none => (s, .rejected)
      | some v =>
        if env.customOk (upd s.cfg.cust key v) then
          let r := store s (fun m => { m with cust := upd m.cust key v }) w
          (r.1, if r.2 then .error else .accepted)
        else (s, .rejected)
  | _ => (s, .rejected)

def profileKey : Text := "SecurityProfile".toList

/-- `set`, conf l.3826-4320; no branch: Rejected (impl l.1863). -/
def set (env : Env) (s : St) (now : Int) (key t : Text) (w : Write) : St × Status :=
  match table.find? (fun e => ciEq key e.name && e.rule != .none && e.rule != .profile) with
  | some e => setKey env s now e t w
  | none =>
    if ciEq key authKey then setAuthKey s t w
    else if pricePrefix.isPrefixOf key then setPrice env s key t w
    else if (s.cfg.cust key).isSome then setCustom env s key t w
    else if ciEq key profileKey then (s, .accepted)
    else (s, .rejected)

def profileOf (s : St) : Int :=
  match s.cfg.keys profileKey with
  | some (.int n) => n
  | _ => 0

/-- SecurityProfile after `set`, impl l.1895-1939. -/
def askProfile (env : Env) (s : St) (t : Text) : St × Status :=
  match stoi t with
  | .invalid => (s, .rejected)
  | .range => (s, .error)
  | .val p =>
    if p ≤ profileOf s then (s, .rejected)
    else if (p = 1 ∨ p = 2) ∧ (s.cfg.keys authKey).isNone then (s, .rejected)
    else if (p = 2 ∨ p = 3) ∧ env.csmsRoot = false then (s, .rejected)
    else if p = 3 ∧ env.clientCert = false then (s, .rejected)
    else if p > 3 then (s, .rejected)
    else ({ s with cb := some (.new p) }, .accepted)

/-- `set` and what follows it in `set_configuration_key_internal`, impl l.1858-1970. -/
def doSet (env : Env) (s : St) (now : Int) (key t : Text) (w : Write) : St × Status :=
  let r := set env s now key t w
  if r.2 = .accepted ∧ ciEq key profileKey = true then askProfile env r.1 t else r

/-- `set_configuration_key_internal`, impl l.1845-1985: ChangeConfiguration and the function of the API.  `key != "AuthorizationKey"` is case sensitive
(include/ocpp/common/cistring.hpp l.65-67), `key == "AuthorizationKey"` is not. -/
def change (env : Env) (s : St) (now : Int) (key t : Text) (w : Write) : St × Status :=
  match get env s key with
  | .throws => (s, .error)
  | .kv _ ro _ => if key ≠ authKey ∧ ro = true then (s, .rejected) else doSet env s now key t w
  | .unknown =>
    if ciEq key authKey then (if key ≠ authKey then (s, .error) else doSet env s now key t w)
    else (s, .notSupported)

/-- Who is told about an accepted change, impl l.1976-1985: `registered` are the names with a callback of their own; a map with a case sensitive order. -/
inductive Told
  | own
  | generic
  | nobody
  deriving DecidableEq, Repr

def told (registered : List Text) (generic : Bool) (key : Text) : Told :=
  if registered.any (· == key) then .own else if generic then .generic else .nobody

/-! ## GetConfiguration -/

/-- The answer to a request for some keys, impl l.4923-4958; `none`: an exception. -/
def getSome (env : Env) (s : St) : List Text → Option (List Got × List Text)
  | [] => some ([], [])
  | k :: r => match get env s k with
    | .throws => none
    | .unknown => (getSome env s r).map (fun a => (a.1, k :: a.2))
    | g => (getSome env s r).map (fun a => (g :: a.1, a.2))

/-- Collecting the results of `get`; unknown ones are left out. -/
def collect : List Got → Option (List Got)
  | [] => some []
  | .throws :: _ => none
  | .unknown :: r => collect r
  | g :: r => (collect r).map (g :: ·)

/-- All price texts: `getAllDefaultPriceTextKeyValues`, conf l.2915-2946. -/
def allPrices (env : Env) (s : St) : List Got :=
  (s.cfg.price.getD []).map (fun p => mkKv (pricePrefix ++ ',' :: p.1) false (some ((env.priceText p.2).map J.shown |>.getD [])))

/-- `get_all_key_value`, conf l.3787-3824, without the order of the keys: `get` for each key with a value in a section that is supported.  `custom` are the names in the
section of the custom keys. -/
def getAll (env : Env) (s : St) (custom : List Text) : Option (List Got) :=
  collect (((table.filter (fun e => env.sup e.sect && (s.cfg.keys e.name).isSome)).map (fun e => get env s e.name))
    ++ (if env.sup .price then allPrices env s else [])
    ++ (if env.sup .security && (s.cfg.keys authKey).isSome then [get env s authKey] else [])
    ++ (if env.sup .custom then custom.map (get env s) else []))

/-! ## Starting -/

/-- The schema of a key. -/
def Ty.ok : Ty → Val → Bool
  | .bool, .bool _ => true
  | .int lo hi, .int n => (match lo with
      | some l => decide (l ≤ n)
      | none => true) && (match hi with
      | some h => decide (n ≤ h)
      | none => true)
  | .str lo hi, .text t => decide (lo ≤ t.length) && (match hi with
      | some h => decide (t.length ≤ h)
      | none => true)
  | .list, .list _ => true
  | .obj, .json j => j.good
  | _, _ => false

/-- Validation by the constructor, conf l.83-95 and l.143-147; AuthorizationKey: schemas/Security.json. -/
def startOk (env : Env) (m : Maps) : Bool :=
  table.all (fun e => match m.keys e.name with
    | some v => e.ty.ok v && (if e.rule = .measurands then (match v with
        | .text t => env.measurandsOk t
        | _ => false) else true)
    | none => true)
  && (match m.keys authKey with
    | some v => (Ty.str 8 none).ok v
    | none => true)
  && env.customOk m.cust
  && (m.price.getD []).all (fun p => p.2.good)

def over (u b : Text → Option Val) : Text → Option Val := fun k => (u k).orElse (fun _ => b k)

/-- The configuration with the changes: the application merges the file into the configuration (doc/v16/getting_started.md l.65, src/charge_point.cpp l.82-93). -/
def merged (b u : Maps) : Maps := { keys := over u.keys b.keys, cust := over u.cust b.cust, price := u.price.orElse (fun _ => b.price) }

/-- The process starts again; `none`: it cannot. -/
def restart (env : Env) (s : St) : Option St :=
  match s.user with
  | none => none
  | some u => if startOk env (merged s.base u) then some { s with cfg := merged s.base u, cb := none } else none

/-! ## The security profile -/

/-- `switchSecurityProfile`, impl l.2032-2053. -/
def switchTo (s : St) (p : Int) (w : Write) : St :=
  { (store s (fun m => { m with keys := upd m.keys profileKey (.int p) }) w).1 with cb := some (.back (profileOf s)) }

/-- `stopped_connecting_callback`, impl l.340-344: after a disconnect by the station, or after the last attempt to connect. -/
def stoppedConnecting (s : St) (w : Write) : St :=
  match s.cb with
  | some (.new p) => switchTo s p w
  | some (.back p) => switchTo s p w
  | none => s

/-- `connected_callback`, impl l.1311. -/
def connected (s : St) : St := { s with cb := none }

/-- The keys of `setChargepointInformation`, `setChargepointModemInformation` and `setChargepointMeterInformation`, conf l.316-364. -/
def infoNames : List Text :=
  ["ChargePointVendor".toList, "ChargePointModel".toList, "ChargePointSerialNumber".toList, "ChargeBoxSerialNumber".toList, "FirmwareVersion".toList, "ICCID".toList,
    "IMSI".toList, "MeterSerialNumber".toList, "MeterType".toList]

/-- `setChargepointInformation` and similar, conf l.316-364, one key at a time: read only keys are set by the application and the file is written in place; `crash`: the
process ends when the file has been emptied. -/
def information (s : St) (name : Text) (v : Text) (crash : Bool) : St :=
  match s.user with
  | none => s
  | some u =>
    if !infoNames.any (· == name) then s
    else if crash then { s with user := none }
    else { s with
      cfg := { s.cfg with keys := upd s.cfg.keys name (.text v) }
      user := some { u with keys := upd u.keys name (.text v) } }

end Verif.Conf16
