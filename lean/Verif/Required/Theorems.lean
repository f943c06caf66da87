import Verif.Required.Lemmas
/-
C224: the check when the charging station is created.
C225: what was needed at the start can be read ever after.
C226: values keep the type of their variable.
-/
set_option linter.constructorNameAsVariable false

namespace Verif.Req2

open Verif.DM

/-! ### C224 -/

/-- C224: the charging station starts exactly if its device model is complete and, beyond that, the V2X
controllers of all EVSEs are described when V2X is available at one of them. -/
theorem C224_partial (dm : DM) (hwf : WellFormed dm) (st : List (Int × Int)) (hst : (st.map (·.1)).Nodup) :
    check dm st = none ↔ Complete dm st ∧
      ∀ i n, (i, n) ∈ st → Present dm ⟨"V2XChargingCtrlr".toList, none, some (i, none)⟩ →
        (∃ j m, (j, m) ∈ st ∧ V2xAvailable dm j) → V2xComplete dm i := by
  unfold check
  rw [Option.or_eq_none_iff, checkVariables_none hwf]
  have hall : st.findSome? (fun e => checkEvse dm st e.1 e.2) = none ↔
      ∀ i n, (i, n) ∈ st → checkEvse dm st i n = none := by
    rw [List.findSome?_eq_none_iff]
    exact ⟨fun h i n hi => h (i, n) hi, fun h e he => h e.1 e.2 he⟩
  constructor
  · rintro ⟨⟨hv, hx⟩, hs⟩
    unfold checkStructure at hs
    split at hs
    · cases hs
    · rename_i h1
      split at hs
      · cases hs
      · rename_i h2
        rw [hall] at hs
        have h3 := fun i n hi => (checkEvse_none hwf st i n).mp (hs i n hi)
        refine ⟨⟨hv, hx, ⟨(stray_iff dm).mp (by simpa using h1), ?_, fun i n hi => (h3 i n hi).1⟩,
          fun i n hi => (h3 i n hi).2.1, fun i n hi => (h3 i n hi).2.2.2, fun i n hi hav => ?_⟩,
          fun i n hi => (h3 i n hi).2.2.1⟩
        · exact (evseCount_iff st hst (fun i n hi => (h3 i n hi).2.1)).mp (by simpa using h2)
        · refine (h3 i n hi).2.2.1 ?_ ⟨i, n, hi, hav⟩
          obtain ⟨val, hval, _⟩ := hav
          exact hasValue_present ((hasValue_exists _ _).mpr ⟨val, hval⟩)
  · rintro ⟨⟨hv, hx, ⟨hs1, hs2, hs3⟩, he, hc, _⟩, h2x⟩
    refine ⟨⟨hv, hx⟩, ?_⟩
    unfold checkStructure
    rw [if_neg (by rw [(stray_iff dm).mpr hs1]; simp), if_neg, hall]
    · intro i n hi
      exact (checkEvse_none hwf st i n).mpr ⟨hs3 i n hi, he i n hi, h2x i n hi, hc i n hi⟩
    · have := (evseCount_iff st hst he).mpr hs2
      simp [this]

/-- C224: when variables are missing, the error names exactly the missing ones, all of them. -/
theorem C224_named (dm : DM) (hwf : WellFormed dm) (st : List (Int × Int)) (hs : Supports2 dm)
    (x0 : CV) (h0 : Needed dm x0) (hx0 : ¬ HasValue dm x0) :
    ∃ l, check dm st = some (.missing l) ∧ ∀ x, x ∈ l ↔ Needed dm x ∧ ¬ HasValue dm x := by
  obtain ⟨csl, hv⟩ := supportsKnown_value (.inl hs)
  have hk := (supportsKnown_of hwf hv).mp (.inl hs)
  have h2 := (supports2_of hwf hv).mp hs
  have hm := mem_missing hwf hk
  have hne : (missing dm (versionsOf csl)).isEmpty = false := by
    cases hl : missing dm (versionsOf csl) with
    | nil => have := (hm x0).mpr ⟨h2, h0, hx0⟩; rw [hl] at this; cases this
    | cons a l => rfl
  refine ⟨missing dm (versionsOf csl), ?_, fun x => (hm x).trans ⟨fun h => h.2, fun h => ⟨h2, h⟩⟩⟩
  have hempty : (versionsOf csl).isEmpty = false := by simpa using hk
  unfold check checkVariables
  rw [(getText_iff hwf _ _).mpr hv]
  dsimp only
  rw [hempty, hne]
  rfl

/-! A charging station with one EVSE and two connectors. -/

/-- A read-only variable with a value. -/
def exVar (x : CV) (val : String) : Entry :=
  ⟨x.1, x.2, ⟨.string, none, none, none, true⟩, [⟨.actual, some val.toList, some .readOnly⟩]⟩

/-- The variables of an EVSE and its connectors. -/
def exEvse (i : Int) (n : Nat) : DM :=
  requiredEvse.map (fun v => exVar (evseComp i, v) "x") ++
  [⟨evseComp i, vbl "Power", ⟨.decimal, none, some 22000, none, true⟩, []⟩] ++
  (List.range n).flatMap (fun (k : Nat) => requiredConnector.map (fun v => exVar (connectorComp i (k + 1), v) "x"))

/-- All variables that are required, without optional controllers. -/
def exControllers (versions : String) : DM :=
  (required.eraseDups.map (fun x => exVar x (if x == supportedVersions then versions else "1")))

def exStation : DM := exControllers "ocpp2.0.1,ocpp2.1" ++ exEvse 1 2

theorem wellFormed_check {dm : DM} (h1 : (dm.map (fun e => (e.comp, e.var))).Nodup)
    (h2 : ∀ e ∈ dm, (e.attrs.map (·.type)).Nodup) : WellFormed dm := by
  constructor
  · rw [List.Nodup, List.pairwise_map] at h1
    exact h1.imp (fun h he => h (Prod.ext he.1 he.2))
  · intro e he
    have := h2 e he
    rw [List.Nodup, List.pairwise_map] at this
    exact this

theorem exStation_wf : WellFormed exStation :=
  wellFormed_check (by decide +kernel) (by decide +kernel)

example : check exStation [(1, 2)] = none := by decide +kernel

example : Complete exStation [(1, 2)] :=
  ((C224_partial exStation exStation_wf [(1, 2)] (by decide)).mp (by decide +kernel)).1

/-- A third connector, another EVSE, or a missing variable: it does not start. -/
example : check exStation [(1, 3)] = some (.connectorCount 1) ∧ check exStation [(1, 1)] = some (.connectorCount 1) ∧
    check exStation [(1, 2), (2, 1)] = some .evseCount ∧ check exStation [(2, 2)] = some (.connectorCount 2) := by
  decide +kernel

example : check (exStation.filter (fun e => e.var != vbl "TimeSource" && e.var != vbl "TxStopPoint")) [(1, 2)] =
    some (.missing [cv "ClockCtrlr" "TimeSource", cv "TxCtrlr" "TxStopPoint", cv "TxCtrlr" "TxStopPoint"]) := by
  decide +kernel

/-- An optional controller that is available must be described. -/
example : check (exVar (cv "LocalAuthListCtrlr" "Available") "true" :: exStation) [(1, 2)] =
    some (.missing [cv "LocalAuthListCtrlr" "Entries", cv "LocalAuthListCtrlr" "ItemsPerMessage",
      cv "LocalAuthListCtrlr" "BytesPerMessage"]) ∧
    check (exVar (cv "LocalAuthListCtrlr" "Available") "false" :: exStation) [(1, 2)] = none := by decide +kernel

/-- The hypotheses of `C224_named` are met. -/
example : ∃ dm x0, WellFormed dm ∧ Supports2 dm ∧ Needed dm x0 ∧ ¬ HasValue dm x0 := by
  refine ⟨exStation.filter (fun e => e.var != vbl "TimeSource"), cv "ClockCtrlr" "TimeSource", ?_, ?_, ?_, ?_⟩
  · exact wellFormed_check (by decide +kernel) (by decide +kernel)
  · refine .inl ⟨"ocpp2.0.1,ocpp2.1".toList, ?_, ?_⟩
    · exact (getText_iff (wellFormed_check (by decide +kernel) (by decide +kernel)) _ _).mp (by decide +kernel)
    · exact (mem_split _ _).mp (by decide +kernel)
  · exact .inl ((mem_required _).mp (by decide +kernel))
  · exact (getText_none (wellFormed_check (by decide +kernel) (by decide +kernel)) _).mp (by decide +kernel)

/-- Two EVSEs with a V2X controller each, available only at the first; that of the second is only said to be
there. -/
def exV2x : DM := exControllers "ocpp2.1" ++ exEvse 1 1 ++ exEvse 2 1 ++
  requiredV2x.map (fun v => exVar (v2xComp 1, v) "true") ++ [exVar (v2xComp 2, vbl "Available") "false"]

/-- C224 is violated: whether V2X is available at *any* EVSE decides whether the V2X controller of an EVSE
must be described, so a charging station with a complete device model does not start
(`device_model.cpp` l.603-609). -/
theorem C224_v2x_violated : ∃ dm st, WellFormed dm ∧ (st.map (·.1)).Nodup ∧ Complete dm st ∧ check dm st ≠ none := by
  have hwf : WellFormed exV2x := wellFormed_check (by decide +kernel) (by decide +kernel)
  have key : ∀ i n, (i, n) ∈ [((1 : Int), (1 : Int)), (2, 1)] → ∀ (P : Int → Int → Prop), P 1 1 → P 2 1 → P i n := by
    intro i n h P h1 h2
    simp only [List.mem_cons, Prod.mk.injEq, List.not_mem_nil, or_false] at h
    rcases h with ⟨rfl, rfl⟩ | ⟨rfl, rfl⟩
    · exact h1
    · exact h2
  refine ⟨exV2x, [(1, 1), (2, 1)], hwf, by decide, ?_, by decide +kernel⟩
  obtain ⟨hv, hx⟩ := (checkVariables_none hwf).mp (by decide +kernel)
  -- the same device model without V2X passes the check
  have hc1 : checkEvse exV2x [] 1 1 = none := by decide +kernel
  have hc2 : checkEvse exV2x [] 2 1 = none := by decide +kernel
  have h1 := (checkEvse_none hwf [] 1 1).mp hc1
  have h2 := (checkEvse_none hwf [] 2 1).mp hc2
  have he : ∀ i n, (i, n) ∈ [((1 : Int), (1 : Int)), (2, 1)] → EvseComplete exV2x i :=
    fun i n hi => key i n hi (fun i _ => EvseComplete exV2x i) h1.2.1 h2.2.1
  refine ⟨hv, hx, ⟨(stray_iff _).mp (by decide +kernel), (evseCount_iff _ (by decide) he).mp (by decide +kernel),
    fun i n hi => ?_⟩, he, fun i n hi => ?_, fun i n hi => ?_⟩
  · exact key i n hi (fun i n => 0 ≤ n ∧ ∀ c, Present exV2x c → c.name = "Connector".toList →
      c.evse.map (·.1) = some i → ∃ k, 1 ≤ k ∧ k ≤ n ∧ c = ⟨"Connector".toList, none, some (i, some k)⟩) h1.1 h2.1
  · exact key i n hi (fun i n => ∀ k, 1 ≤ k → k ≤ n → ConnectorComplete exV2x i k) h1.2.2.2 h2.2.2.2
  · refine key i n hi (fun i _ => V2xAvailable exV2x i → V2xComplete exV2x i) (fun _ => ?_) (fun h => ?_)
    · rw [← requiredV2x_mem]
      intro v hv
      rw [← hasValue_iff hwf]
      have : ∀ v ∈ requiredV2x, hasValue exV2x (v2xComp 1, v) = true := by decide +kernel
      exact this v hv
    · exfalso
      have := (isTrue_iff hwf _).mpr h
      revert this
      decide +kernel

/-- C224 is violated: a station that lists only `ocpp1.6` for its 2.x device model starts although every
other required variable is missing, and a version written with a space before it is not seen, so that a
station that lists only such a version is refused. -/
theorem C224_versions_violated :
    (∃ dm st, WellFormed dm ∧ check dm st = none ∧ ∀ x, AlwaysRequired x → x ≠ supportedVersions → ¬ HasValue dm x) ∧
    check (exControllers " ocpp2.1" ++ exEvse 1 2) [(1, 2)] = some .noVersions := by
  refine ⟨⟨[exVar supportedVersions "ocpp1.6"] ++ exEvse 1 2, [(1, 2)],
    wellFormed_check (by decide +kernel) (by decide +kernel), by decide +kernel, ?_⟩, by decide +kernel⟩
  intro x hx hne
  rw [← getText_none (wellFormed_check (by decide +kernel) (by decide +kernel))]
  have : ∀ x ∈ required, x ≠ supportedVersions → getText ([exVar supportedVersions "ocpp1.6"] ++ exEvse 1 2) x = none := by
    decide +kernel
  exact this x ((mem_required x).mpr hx) hne

/-- C224 is violated: contrary to its documentation (`include/ocpp/v2/device_model.hpp` l.157) the check lets
empty values pass: all controllers here have an empty string for a value, except for the versions. -/
theorem C224_empty_violated : ∃ dm st, WellFormed dm ∧ check dm st = none ∧ Supports2 dm ∧
    ∀ x, AlwaysRequired x → x ≠ supportedVersions → Value dm x [] := by
  have hwf : WellFormed (required.eraseDups.map (fun x => exVar x (if x == supportedVersions then "ocpp2.1" else "")) ++
    exEvse 1 2) := wellFormed_check (by decide +kernel) (by decide +kernel)
  refine ⟨_, [(1, 2)], hwf, by decide +kernel, .inr ⟨"ocpp2.1".toList, ?_, ?_⟩, ?_⟩
  · exact (getText_iff hwf _ _).mp (by decide +kernel)
  · exact (mem_split _ _).mp (by decide +kernel)
  · intro x hx hne
    have : ∀ x ∈ required, x ≠ supportedVersions →
        getText (required.eraseDups.map (fun x => exVar x (if x == supportedVersions then "ocpp2.1" else "")) ++
          exEvse 1 2) x = some [] := by decide +kernel
    exact (getText_iff hwf _ _).mp (this x ((mem_required x).mpr hx) hne)

/-! ### C225 -/

theorem setVariables_inv (P : DM → Prop) (g : DM → SetData → Bool) (ro : Bool)
    (hP : ∀ dm c v a val, P dm → P (DM.setValue dm c v a val ro).2) :
    ∀ (ds : List SetData) (dm : DM) (m : List (SetData × SetResult)), P dm → P (setVariables g ro dm m ds).1
  | [], _, _, h => h
  | d :: r, dm, m, h => by
    refine setVariables_inv P g ro hP r _ _ ?_
    unfold setOne
    split
    · exact hP _ _ _ _ _ h
    · exact h

/-- What every write keeps is kept by every history. -/
theorem run_inv (P : DM → Prop) (hP : ∀ dm c v a val ro, P dm → P (DM.setValue dm c v a val ro).2) :
    ∀ (es : List Ev) (dm : DM), P dm → P (run dm es)
  | [], _, h => h
  | e :: es, dm, h => by
    refine run_inv P hP es _ ?_
    cases e with
    | setVariables g ds => exact setVariables_inv P g false (fun dm c v a val => hP dm c v a val false) ds dm [] h
    | setValue x a val ro => exact hP _ _ _ _ _ _ h
    | setReadOnly x a val =>
      simp only [step, setReadOnlyValue]
      split
      · exact h
      · rename_i r hr
        split at hr
        · injection hr with hr; subst hr; exact hP _ _ _ _ _ _ h
        · cases hr

theorem run_wf {dm : DM} (hwf : WellFormed dm) (es : List Ev) : WellFormed (run dm es) :=
  run_inv WellFormed (fun dm c v a val ro h => (C72_write dm c v a val ro).2.2 h) es dm hwf

theorem run_hasValue {dm : DM} (x : CV) (h : HasValue dm x) (es : List Ev) : HasValue (run dm es) x := by
  refine run_inv (fun dm => HasValue dm x) ?_ es dm h
  rintro dm c v a val ro ⟨y, hy, hv⟩
  obtain ⟨h1, h2, _⟩ := C72_write dm c v a val ro
  by_cases hacc : (DM.setValue dm c v a val ro).1 = .accepted
  · obtain ⟨o1, o2, _⟩ := h2 hacc
    by_cases hsame : x.1 = c ∧ x.2 = v ∧ AttrType.actual = a
    · obtain ⟨e1, e2, e3⟩ := hsame
      refine ⟨{ y with value := some val }, ?_, by simp⟩
      rw [e1, e2, e3] at hy ⊢
      exact (o1 _).mpr ⟨y, hy, rfl⟩
    · exact ⟨y, (o2 _ _ _ _ hsame).mpr hy, hv⟩
  · rw [h1 hacc]; exact ⟨y, hy, hv⟩

/-- C225: on a charging station that has started and supports 2.x, no history of writes makes a read of a
variable fail that was needed at the start; and the EVSEs and connectors stay described. -/
theorem C225_partial (dm : DM) (hwf : WellFormed dm) (st : List (Int × Int)) (hst : (st.map (·.1)).Nodup)
    (hstart : check dm st = none) (h2 : Supports2 dm) (es : List Ev) :
    (∀ x, Needed dm x → getText (run dm es) x ≠ none) ∧
    (∀ i n, (i, n) ∈ st → ∀ v ∈ ["Available", "AvailabilityState", "SupplyPhases"],
      getText (run dm es) (⟨"EVSE".toList, none, some (i, none)⟩, vbl v) ≠ none) ∧
    (∀ i n, (i, n) ∈ st → ∀ k, 1 ≤ k → k ≤ n → ∀ v ∈ ["Available", "AvailabilityState", "SupplyPhases", "ConnectorType"],
      getText (run dm es) (⟨"Connector".toList, none, some (i, some k)⟩, vbl v) ≠ none) := by
  obtain ⟨hc, _⟩ := (C224_partial dm hwf st hst).mp hstart
  have key : ∀ x, HasValue dm x → getText (run dm es) x ≠ none := by
    intro x hx hn
    exact (getText_none (run_wf hwf es) x).mp hn (run_hasValue x hx es)
  exact ⟨fun x hx => key x (hc.values h2 x hx), fun i n hi v hv => key _ ((hc.evse i n hi).values v hv),
    fun i n hi k h1 h3 v hv => key _ (hc.connector i n hi k h1 h3 v hv)⟩

/-- The hypotheses are met. -/
example : ∃ dm st, WellFormed dm ∧ (st.map (·.1)).Nodup ∧ check dm st = none ∧ Supports2 dm := by
  refine ⟨exStation, [(1, 2)], exStation_wf, by decide, by decide +kernel, .inl ⟨"ocpp2.0.1,ocpp2.1".toList, ?_, ?_⟩⟩
  · exact (getText_iff exStation_wf _ _).mp (by decide +kernel)
  · exact (mem_split _ _).mp (by decide +kernel)

/-- C225 is violated: a controller that is made available later needs variables nobody checks then, for
example by SetVariables of the CSMS when `Available` can be written. -/
theorem C225_violated : ∃ dm st es x, WellFormed dm ∧ check dm st = none ∧ Supports2 dm ∧
    Needed (run dm es) x ∧ getText (run dm es) x = none := by
  have hwf : WellFormed (⟨(cv "SmartChargingCtrlr" "Available").1, (cv "SmartChargingCtrlr" "Available").2,
    ⟨.boolean, none, none, none, true⟩, [⟨.actual, some "false".toList, some .readWrite⟩]⟩ :: exStation) :=
    wellFormed_check (by decide +kernel) (by decide +kernel)
  refine ⟨_, [(1, 2)], [.setVariables (fun _ _ => true)
    [⟨(cv "SmartChargingCtrlr" "Available").1, (cv "SmartChargingCtrlr" "Available").2, none, "true".toList⟩]],
    cv "SmartChargingCtrlr" "SupplyVoltage", hwf, by decide +kernel, .inl ⟨"ocpp2.0.1,ocpp2.1".toList, ?_, ?_⟩, ?_,
    by decide +kernel⟩
  · exact (getText_iff hwf _ _).mp (by decide +kernel)
  · exact (mem_split _ _).mp (by decide +kernel)
  · refine .inr ⟨cv "SmartChargingCtrlr" "Available", (mem_requiredIf _ _).mp ?_, ?_⟩
    · exact ⟨requiredIf[1], by decide +kernel, by decide +kernel, by decide +kernel⟩
    · exact (isTrue_iff (run_wf hwf _) _).mp (by decide +kernel)

/-! ### C226 -/

theorem write_ofType {dm : DM} (hwf : WellFormed dm) {e : Entry} (he : e ∈ dm) {a : AttrType} {val : Str} {ro : Bool}
    (h : (DM.setValue dm e.comp e.var a val ro).1 = .accepted) : OfType e.chars val := by
  refine ⟨(C36_type dm hwf e he a val ro h).1, fun ht => ?_⟩
  obtain ⟨f, x, m, h1, h2, _⟩ := (setValue_accepted _ _ _ _ _ _).mp h
  rw [hwf.find he] at h1; injection h1 with h1; subst h1
  simp only [validateValue, ht] at h2
  split at h2
  · simp at h2
  · rename_i hi
    simp only [Bool.not_eq_true', Bool.not_eq_false] at hi
    cases hs : stoi val with
    | none => rw [hs] at h2; simp at h2
    | some n =>
      obtain ⟨k1, k2, k3⟩ := (integer_iff val n).mp ⟨hi, hs⟩
      exact ⟨n, k1, by omega, by omega⟩

theorem write_typed {dm : DM} (h : WellFormed dm ∧ Typed dm) (c : Comp) (v : Vbl) (a : AttrType) (val : Str) (ro : Bool) :
    WellFormed (DM.setValue dm c v a val ro).2 ∧ Typed (DM.setValue dm c v a val ro).2 := by
  obtain ⟨hwf, ht⟩ := h
  refine ⟨(C72_write dm c v a val ro).2.2 hwf, ?_⟩
  by_cases hacc : (DM.setValue dm c v a val ro).1 = .accepted
  · have htype := @write_ofType dm hwf
    rw [setValue_state, if_pos hacc, store_eq]
    intro f hf b hb w hw
    rw [List.mem_map] at hf
    obtain ⟨e, he, rfl⟩ := hf
    rw [(storeEntry_comp c v a val e).2.2]
    rw [storeEntry_attr] at hb
    split at hb
    · rename_i hcv
      obtain ⟨rfl, rfl⟩ := hcv
      obtain ⟨y, hy, rfl⟩ := hb
      by_cases hty : y.type = a
      · rw [if_pos hty] at hw
        injection hw with hw
        subst hw
        exact htype he hacc
      · rw [if_neg hty] at hw
        exact ht e he y hy w hw
    · exact ht e he b hb w hw
  · rw [setValue_state, if_neg hacc]; exact ht

/-- C226: if the values of the device model are of the types of their variables at the start, they are ever
after, whatever is written by the CSMS or the station: integers stay integers a 32-bit `int` can hold. -/
theorem C226_types (dm : DM) (hwf : WellFormed dm) (ht : Typed dm) (es : List Ev) : Typed (run dm es) :=
  (run_inv (fun dm => WellFormed dm ∧ Typed dm) (fun _ c v a val ro h => write_typed h c v a val ro) es dm
    ⟨hwf, ht⟩).2

/-- The variables of a device model and their characteristics never change. -/
theorem run_entries {dm : DM} (es : List Ev) (c : Comp) (v : Vbl) (ch : Chars) :
    (∃ e ∈ run dm es, e.comp = c ∧ e.var = v ∧ e.chars = ch) ↔ ∃ e ∈ dm, e.comp = c ∧ e.var = v ∧ e.chars = ch := by
  refine run_inv (fun dm' => (∃ e ∈ dm', e.comp = c ∧ e.var = v ∧ e.chars = ch) ↔
    ∃ e ∈ dm, e.comp = c ∧ e.var = v ∧ e.chars = ch) ?_ es dm Iff.rfl
  intro dm' c' v' a val ro h
  rw [← h]
  obtain ⟨h1, h2, _⟩ := C72_write dm' c' v' a val ro
  by_cases hacc : (DM.setValue dm' c' v' a val ro).1 = .accepted
  · exact (h2 hacc).2.2 c v ch
  · rw [h1 hacc]

/-- C226: hence a read of an integer that was needed at the start never throws: there is a value, it is a
decimal numeral, and the number it stands for is what is read. -/
theorem C226_integers (dm : DM) (hwf : WellFormed dm) (st : List (Int × Int)) (hst : (st.map (·.1)).Nodup)
    (hstart : check dm st = none) (h2 : Supports2 dm) (ht : Typed dm) (es : List Ev) (x : CV) (hx : Needed dm x)
    (hint : ∃ e ∈ dm, e.comp = x.1 ∧ e.var = x.2 ∧ e.chars.dataType = .integer) :
    ∃ n val, getInt (run dm es) x = some n ∧ Value (run dm es) x val ∧ IsIntegerText val n := by
  obtain ⟨e, he, e1, e2, e3⟩ := hint
  have hne := (C225_partial dm hwf st hst hstart h2 es).1 x hx
  cases hg : getText (run dm es) x with
  | none => exact absurd hg hne
  | some val =>
    have hv := (getText_iff (run_wf hwf es) x val).mp hg
    obtain ⟨y, ⟨f, hf, f1, f2, f3, f4⟩, hy⟩ := hv
    obtain ⟨g, hg1, g1, g2, g3⟩ := (run_entries es x.1 x.2 e.chars).mpr ⟨e, he, e1, e2, rfl⟩
    have hfg : f = g := by
      have k1 := (run_wf hwf es).find hf
      have k2 := (run_wf hwf es).find hg1
      rw [f1, f2] at k1
      rw [g1, g2, k1] at k2
      injection k2
    subst hfg
    obtain ⟨_, k⟩ := C226_types dm hwf ht es f hf y f3 val hy
    obtain ⟨n, hn, n1, n2⟩ := k (by rw [g3, e3])
    refine ⟨n, val, ?_, ⟨y, ⟨f, hf, f1, f2, f3, f4⟩, hy⟩, hn⟩
    unfold getInt
    rw [hg]
    exact ((integer_iff val n).mpr ⟨hn, by omega, by omega⟩).2

/-- The example station with an integer that can be written. -/
def exTyped : DM :=
  ⟨(cv "OCPPCommCtrlr" "OfflineThreshold").1, (cv "OCPPCommCtrlr" "OfflineThreshold").2,
    ⟨.integer, none, none, none, true⟩, [⟨.actual, some "60".toList, some .readWrite⟩]⟩ ::
  exStation.filter (fun e => e.var != vbl "OfflineThreshold")

/-- The hypotheses are met, and the integer is read as it was last written. -/
example : WellFormed exTyped ∧ check exTyped [(1, 2)] = none ∧ Supports2 exTyped ∧ Typed exTyped ∧
    Needed exTyped (cv "OCPPCommCtrlr" "OfflineThreshold") ∧
    (∃ e ∈ exTyped, e.comp = (cv "OCPPCommCtrlr" "OfflineThreshold").1 ∧
      e.var = (cv "OCPPCommCtrlr" "OfflineThreshold").2 ∧ e.chars.dataType = .integer) ∧
    getInt (run exTyped [.setVariables (fun _ _ => true)
      [⟨(cv "OCPPCommCtrlr" "OfflineThreshold").1, (cv "OCPPCommCtrlr" "OfflineThreshold").2, none, "300".toList⟩],
      .setValue (cv "OCPPCommCtrlr" "OfflineThreshold") .actual "99999999999".toList false])
      (cv "OCPPCommCtrlr" "OfflineThreshold") = some 300 := by
  have hwf : WellFormed exTyped := wellFormed_check (by decide +kernel) (by decide +kernel)
  refine ⟨hwf, by decide +kernel, .inl ⟨"ocpp2.0.1,ocpp2.1".toList, ?_, ?_⟩, ?_, .inl ((mem_required _).mp (by decide +kernel)),
    ⟨_, List.mem_cons_self, rfl, rfl, rfl⟩, by decide +kernel⟩
  · exact (getText_iff hwf _ _).mp (by decide +kernel)
  · exact (mem_split _ _).mp (by decide +kernel)
  · intro e he a ha val hval
    rcases List.mem_cons.mp he with rfl | he
    · rcases List.mem_singleton.mp ha with rfl
      injection hval with hval
      subst hval
      have h60 : IsIntegerText "60".toList 60 := ⟨"60".toList, by decide, by unfold Digits; decide, .inl ⟨rfl, by decide⟩⟩
      exact ⟨⟨60, h60, .inr ⟨by simp, by simp⟩⟩, fun _ => ⟨60, h60, by decide, by decide⟩⟩
    · have hstr : ∀ e ∈ exStation, e.chars.dataType = .string ∨ e.attrs = [] := by decide +kernel
      rcases hstr e (List.mem_filter.mp he).1 with h | h
      · refine ⟨?_, fun h2 => by rw [h] at h2; cases h2⟩
        unfold Admits
        simp only [h]
        exact ⟨by simp, by simp⟩
      · rw [h] at ha; cases ha

end Verif.Req2
