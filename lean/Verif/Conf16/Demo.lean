import Verif.Conf16.Lemmas2
/-! A station for the examples and counterexamples. -/
set_option linter.unusedSimpArgs false

namespace Verif.Conf16

/-! ## Rows of the table -/

/-- The row of HeartbeatInterval. -/
def heartbeatRow : Key := ⟨"HeartbeatInterval".toList, .core, false, (.int (some 0) none), .no, (.nat 0 none), .none, false⟩

theorem heartbeatRow_mem : heartbeatRow ∈ table := List.mem_of_getElem? (i := 55) rfl

/-- The row of SecurityProfile. -/
def profileRow : Key := ⟨"SecurityProfile".toList, .security, true, (.int (some 0) (some 3)), .no, .profile, .none, false⟩

theorem profileRow_mem : profileRow ∈ table := List.mem_of_getElem? (i := 97) rfl

/-- The row of ConnectorEvseIds. -/
def evseIdsRow : Key := ⟨"ConnectorEvseIds".toList, .internal, false, (.str 7 (some 1000)), .no, .evseIds, .absent, false⟩

theorem evseIdsRow_mem : evseIdsRow ∈ table := List.mem_of_getElem? (i := 36) rfl

/-- The row of SeccLeafSubjectCountry. -/
def countryRow : Key := ⟨"SeccLeafSubjectCountry".toList, .internal, false, (.str 2 (some 2)), .no, (.text 2 (some 2)), .absent, false⟩

theorem countryRow_mem : countryRow ∈ table := List.mem_of_getElem? (i := 34) rfl

/-- The row of CentralSystemURI. -/
def uriRow : Key := ⟨"CentralSystemURI".toList, .internal, false, (.str 1 none), .uri, .uri, .none, false⟩

theorem uriRow_mem : uriRow ∈ table := List.mem_of_getElem? (i := 1) rfl

/-- The row of AuthorizeRemoteTxRequests. -/
def remoteRow : Key := ⟨"AuthorizeRemoteTxRequests".toList, .core, false, .bool, .no, .boolAny, .none, false⟩

theorem remoteRow_mem : remoteRow ∈ table := List.mem_of_getElem? (i := 48) rfl

/-- The row of CompositeScheduleDefaultNumberPhases. -/
def phasesRow : Key := ⟨"CompositeScheduleDefaultNumberPhases".toList, .internal, false, (.int (some 1) (some 3)), .no, .phases, .absent, false⟩

theorem phasesRow_mem : phasesRow ∈ table := List.mem_of_getElem? (i := 25) rfl

/-- The row of ConnectorPhaseRotation. -/
def rotationRow : Key := ⟨"ConnectorPhaseRotation".toList, .core, false, (.str 0 none), .no, .rotation, .none, false⟩

theorem rotationRow_mem : rotationRow ∈ table := List.mem_of_getElem? (i := 52) rfl

/-- The row of DefaultPrice. -/
def priceRow : Key := ⟨"DefaultPrice".toList, .price, true, .obj, .no, .json, .none, false⟩

theorem priceRow_mem : priceRow ∈ table := List.mem_of_getElem? (i := 104) rfl

/-- The row of TimeOffset. -/
def offsetRow : Key := ⟨"TimeOffset".toList, .price, true, (.str 1 (some 10)), .no, .offset, .none, false⟩

theorem offsetRow_mem : offsetRow ∈ table := List.mem_of_getElem? (i := 105) rfl

/-- The row of ChargePointVendor. -/
def vendorRow : Key := ⟨"ChargePointVendor".toList, .internal, false, (.str 1 (some 20)), .yes, .none, .none, false⟩

theorem vendorRow_mem : vendorRow ∈ table := List.mem_of_getElem? (i := 5) rfl

/-- The row of RetryBackoffRandomRange. -/
def retryRow : Key := ⟨"RetryBackoffRandomRange".toList, .internal, false, (.int none none), .no, .none, .none, false⟩

theorem retryRow_mem : retryRow ∈ table := List.mem_of_getElem? (i := 13) rfl

/-- The row of LocalAuthListEnabled. -/
def localListRow : Key := ⟨"LocalAuthListEnabled".toList, .localList, true, .bool, .no, .bool, .profile, false⟩

theorem localListRow_mem : localListRow ∈ table := List.mem_of_getElem? (i := 99) rfl

/-! ## A change, step by step -/

theorem report_some {env : Env} {s : St} {e : Key} {v : Val} (hv : s.cfg.keys e.name = some v) (hb : bytes v.show ≤ 500) :
    report env s e = .kv e.name (roOf env e.ro) (some v.show) := by
  unfold report
  rw [hv]
  simp only [mkKv]
  rw [if_neg (by omega)]

/-- A writable key with a value is changed if the check succeeds. -/
theorem change_val {env : Env} {s : St} {now : Int} {e : Key} {k t : Text} {w : Write} {v x : Val} (he : Known env e) (hk : ciEq k e.name = true)
    (hv : s.cfg.keys e.name = some v) (hb : bytes v.show ≤ 500) (hro : roOf env e.ro = false) (h1 : e.rule ≠ .none) (h2 : e.rule ≠ .profile)
    (hbl : blocked env s e = false) (hc : check env s now e.rule t = .val x) :
    change env s now k t w = storeKey s e.name x w (if e.rule = .uri then .rebootRequired else .accepted) := by
  rw [change_known he hk, report_some hv hb, hro]
  simp only [Bool.false_eq_true, if_false]
  rw [doSet_key he.1 hk h1 h2]
  unfold setKey
  rw [hbl, hc]
  rfl

theorem entry_auth {env : Env} {k : Text} (hk : ciEq k authKey = true) : entry env k = none := by
  cases h : entry env k with
  | none => rfl
  | some e =>
    have := entry_some h
    rw [not_auth this.1.1 this.2] at hk
    cases hk

theorem auth_not_price : pricePrefix.isPrefixOf authKey = false := by decide +kernel

/-- AuthorizationKey is not reported. -/
theorem get_auth {env : Env} {s : St} (hf : Fresh s.cfg) : get env s authKey = .unknown := by
  unfold get
  rw [entry_auth (ciEq_refl _)]
  simp only [auth_not_price, Bool.and_false, Bool.false_and, Bool.false_eq_true, if_false]
  split
  · unfold reportCustom
    have : s.cfg.cust authKey = none := by
      cases hc : s.cfg.cust authKey with
      | none => rfl
      | some v => have := (hf authKey (by simp [hc])).2; simp [ciEq_refl] at this
    rw [this]
  · rfl

theorem auth_not_profile : ciEq authKey profileKey = false := by decide +kernel

theorem set_auth {env : Env} {s : St} {now : Int} {k t : Text} {w : Write} (hk : ciEq k authKey = true) : set env s now k t w = setAuthKey s t w := by
  unfold set
  have : table.find? (fun e => ciEq k e.name && e.rule != .none && e.rule != .profile) = none := by
    apply List.find?_eq_none.mpr
    intro e he hq
    simp only [Bool.and_eq_true] at hq
    rw [not_auth he hq.1.1] at hk
    cases hk
  rw [this]
  simp only [hk, if_true]

theorem change_auth {env : Env} {s : St} {now : Int} {t : Text} {w : Write} (hf : Fresh s.cfg) : change env s now authKey t w = setAuthKey s t w := by
  unfold change
  rw [get_auth hf]
  simp only [ciEq_refl, if_true, ne_eq, not_true_eq_false, if_false]
  unfold doSet
  simp only [auth_not_profile, Bool.false_eq_true, and_false, if_false]
  exact set_auth (ciEq_refl _)

/-! ## The station -/

def lookup (l : List (Text × Val)) (k : Text) : Option Val := (l.find? (fun p => p.1 == k)).map (fun p => p.2)

def demoKeys : List (Text × Val) :=
  [("HeartbeatInterval".toList, .int 60), ("SecurityProfile".toList, .int 1), ("AuthorizationKey".toList, .text "DEADBEEFDEADBEEF".toList),
   ("ConnectorEvseIds".toList, .text "DE*ABC*E1".toList), ("NumberOfConnectors".toList, .int 1), ("SeccLeafSubjectCountry".toList, .text "DE".toList),
   ("CentralSystemURI".toList, .text "wss://c.example".toList), ("AuthorizeRemoteTxRequests".toList, .bool true), ("RetryBackoffRandomRange".toList, .int 10),
   ("CompositeScheduleDefaultNumberPhases".toList, .int 3), ("ConnectorPhaseRotation".toList, .text "0.RST".toList),
   ("DefaultPrice".toList, .json ⟨"{}".toList, true⟩), ("TimeOffset".toList, .text "01:00".toList), ("ChargePointVendor".toList, .text "V".toList)]

/-- Two JSON texts: one that the schema of prices refuses, and one whose indented form is long. -/
def demoParse (t : Text) : Option J :=
  if t == "{}".toList then some ⟨"{}".toList, false⟩
  else if t == "{\"x\":[[[[[[[[[[[[[[[[]]]]]]]]]]]]]]]]}".toList then some ⟨List.replicate 600 ' ', true⟩
  else none

def demoEnv : Env :=
  { sup := fun _ => true
    uriRo := false
    unlockRo := true
    measurandsOk := fun _ => true
    parse := demoParse
    priceText := some
    date := fun _ => some 100
    customRo := fun k => if k == "MyKey".toList then some false else none
    customConv := fun _ t => some (.text t)
    customOk := fun _ => true
    csmsRoot := true
    clientCert := true }

def demoBase : Maps := { keys := lookup demoKeys, cust := lookup [("MyKey".toList, .text "a".toList)], price := none }

def noChanges : Maps := { keys := fun _ => none, cust := fun _ => none, price := none }

def demo : St := { base := demoBase, cfg := merged demoBase noChanges, user := some noChanges, cb := none }

theorem demo_cfg : merged demoBase noChanges = demoBase := rfl

theorem demo_startOk : startOk demoEnv demoBase = true := by decide +kernel

/-- The station starts. -/
theorem demo_boot : boot demoEnv demoBase noChanges = some demo := by
  unfold boot restart
  dsimp only
  rw [demo_cfg, demo_startOk]
  rfl

theorem demo_fresh : Fresh demo.cfg := by
  intro k hk
  have : k = "MyKey".toList := by
    by_cases h : k = "MyKey".toList
    · exact h
    · refine absurd ?_ hk
      show lookup [("MyKey".toList, .text "a".toList)] k = none
      have h' : ("MyKey".toList == k) = false := beq_eq_false_iff_ne.mpr (Ne.symm h)
      simp only [lookup, List.find?, h', Option.map_none]
  subst this
  constructor
  · have : table.all (fun e => !ciEq "MyKey".toList e.name) = true := by decide +kernel
    intro e he
    simpa using List.all_eq_true.mp this e he
  · decide +kernel

/-- Every profile is supported, so every row of the table is known. -/
theorem demo_known {e : Key} (he : e ∈ table) : Known demoEnv e := ⟨he, fun _ => rfl⟩

/-- A value that the schema does not admit stops the start. -/
theorem startOk_bad {env : Env} {m : Maps} {e : Key} {v : Val} (he : e ∈ table) (hv : m.keys e.name = some v) (hb : e.ty.ok v = false) : startOk env m = false := by
  cases h : startOk env m with
  | false => rfl
  | true =>
    unfold startOk at h
    simp only [Bool.and_eq_true, List.all_eq_true] at h
    have := h.1.1.1 e he
    rw [hv] at this
    simp only [hb, Bool.false_and] at this
    cases this

theorem startOk_bad_auth {env : Env} {m : Maps} {v : Val} (hv : m.keys authKey = some v) (hb : (Ty.str 8 none).ok v = false) : startOk env m = false := by
  cases h : startOk env m with
  | false => rfl
  | true =>
    unfold startOk at h
    simp only [Bool.and_eq_true, List.all_eq_true] at h
    have := h.1.1.2
    rw [hv] at this
    simp only [hb] at this
    cases this

end Verif.Conf16
