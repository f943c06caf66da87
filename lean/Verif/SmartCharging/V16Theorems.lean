import Verif.SmartCharging.V16Composite

/-!
# Properties C15 to C18 for OCPP 1.6

The theorems use the specification in `V16Spec` (`Profile.inForce`, `Decides`, `TxDecides`, `Applies`) and `valueAt`/`WellFormed`.
`sort` is any function that sorts by stack level. The window is `[now, stop)`, instants are `t`, offsets are `t - now`.
-/

namespace Verif.SC16
open Verif.SC

/-! ## Concrete data for the non-vacuity examples -/

/-- Insertion sort by stack level. -/
def insertByStack (e : Entry IP) : List (Entry IP) → List (Entry IP)
  | [] => [e]
  | x :: rest => if x.stack ≤ e.stack then e :: x :: rest else x :: insertByStack e rest

def sortByStack : Sorter
  | [] => []
  | e :: rest => insertByStack e (sortByStack rest)

theorem insertByStack_perm (e : Entry IP) (l : List (Entry IP)) : (insertByStack e l).Perm (e :: l) := by
  induction l with
  | nil => exact List.Perm.refl _
  | cons x l ih =>
    unfold insertByStack
    split
    · exact List.Perm.refl _
    · exact (ih.cons x).trans (List.Perm.swap e x l)

theorem sortByStack_sorts : SortsByStack sortByStack := by
  constructor
  · intro l
    induction l with
    | nil => exact List.Perm.refl _
    | cons e l ih => exact (insertByStack_perm e _).trans (ih.cons e)
  · intro l
    induction l with
    | nil => exact List.Pairwise.nil
    | cons e l ih =>
      show (insertByStack e (sortByStack l)).Pairwise _
      generalize sortByStack l = m at ih
      induction m with
      | nil => simp [insertByStack]
      | cons x m ihm =>
        unfold insertByStack
        obtain ⟨hx, hm⟩ := List.pairwise_cons.1 ih
        split
        · rename_i hle
          refine List.pairwise_cons.2 ⟨?_, ih⟩
          intro y hy
          rcases List.mem_cons.1 hy with rfl | hy
          · exact hle
          · have := hx y hy; omega
        · rename_i hle
          refine List.pairwise_cons.2 ⟨?_, ihm hm⟩
          intro y hy
          rcases List.mem_cons.1 ((insertByStack_perm e m).mem_iff.1 hy) with rfl | hy
          · omega
          · exact hx y hy

/-- A daily profile: 32 A, after one hour 16 A. -/
def exDaily : Profile :=
  { id := 1, stack := 2, purpose := .txDefault, kind := .recurring, recur := some .daily, startSchedule := some 1000,
    duration := some 7200, unit := .A, periods := [⟨0, 32, some 3⟩, ⟨3600, 16, some 3⟩] }

/-- An absolute profile for the whole station: 5000 W. -/
def exMax : Profile :=
  { id := 2, stack := 0, purpose := .chargePointMax, kind := .absolute, startSchedule := some 5000, unit := .W,
    periods := [⟨0, 5000, none⟩] }

/-- A low default: 6 A. -/
def exLow : Profile :=
  { id := 3, stack := 0, purpose := .txDefault, kind := .relative, unit := .A, periods := [⟨0, 6, none⟩] }

def exHandler : Handler := { cpMax := [exMax], connectors := [{ tx := some ⟨7, 900⟩, txDefault := [exLow, exDaily], txProfiles := [] },
  { tx := none, txDefault := [exLow], txProfiles := [] }] }

theorem exDaily_ok : exDaily.Ordered ∧ exDaily.Physical :=
  ⟨⟨⟨_, _, rfl, rfl⟩, by decide, by decide⟩, ⟨by decide +kernel, by
    intro x hx n hn
    simp only [exDaily, List.mem_cons, List.not_mem_nil, or_false] at hx
    rcases hx with rfl | rfl <;> simp at hn <;> omega⟩⟩

theorem exMax_ok : exMax.Ordered ∧ exMax.Physical :=
  ⟨⟨⟨_, _, rfl, rfl⟩, by decide, by decide⟩, ⟨by decide +kernel, by
    intro x hx n hn
    simp only [exMax, List.mem_cons, List.not_mem_nil, or_false] at hx
    subst hx; simp at hn⟩⟩

theorem exLow_ok : exLow.Ordered ∧ exLow.Physical :=
  ⟨⟨⟨_, _, rfl, rfl⟩, by decide, by decide⟩, ⟨by decide +kernel, by
    intro x hx n hn
    simp only [exLow, List.mem_cons, List.not_mem_nil, or_false] at hx
    subst hx; simp at hn⟩⟩

theorem exHandler_sane : exHandler.Sane := by
  refine ⟨⟨by decide, by decide, by decide⟩, ?_, ?_, ?_⟩
  · simp only [exHandler, List.mem_singleton, forall_eq]; exact exMax_ok
  · intro c hc p hp
    simp only [exHandler, List.mem_cons, List.not_mem_nil, or_false] at hc
    rcases hc with rfl | rfl <;> simp only [List.mem_cons, List.not_mem_nil, or_false] at hp
    · rcases hp with rfl | rfl
      · exact exLow_ok
      · exact exDaily_ok
    · subst hp; exact exLow_ok
  · intro c hc p hp
    simp only [exHandler, List.mem_cons, List.not_mem_nil, or_false] at hc
    rcases hc with rfl | rfl <;> cases hp

theorem exConfig_physical : ({} : Config).Physical := by
  refine ⟨?_, ?_, ?_, ?_⟩ <;> decide +kernel

/-! ## C15 -/

/-- **C15.** For every instant of the window, the list of periods computed from the profiles with one purpose has the limit (in its
unit) and number of phases of the period in force of the profile with the highest stack level among those in force, and no limit if no
profile with that purpose is in force. -/
theorem C15_highest_stack_level (sort : Sorter) (hsort : SortsByStack sort) (now stop : Int) (session : Option Int)
    (ps : List Profile) (purpose : Purpose) (hps : ∀ p ∈ ps, p.purpose = purpose → p.Ordered) (hw : stop - now ≤ intMax)
    (t : Int) (h1 : now ≤ t) (h2 : t < stop) :
    ∃ r x, Decides (fun p => p ∈ ps ∧ p.purpose = purpose) session now t r ∧
      valueAt (generate sort (allEntries now stop session ps purpose) now stop gapIP) (t - now) = some x ∧
      match r with
      | none => x.cur = -1 ∧ x.pow = -1 ∧ x.phases = none
      | some (p, per) => x.phases = per.phases ∧
          match p.unit with
          | .A => x.cur = per.limit ∧ x.stackCur = p.stack ∧ x.pow = -1
          | .W => x.pow = per.limit ∧ x.stackPow = p.stack ∧ x.cur = -1 := by
  obtain ⟨r, hr, hv⟩ := generate_decides sort hsort now stop session ps purpose hps hw t h1 h2
  refine ⟨r, toIP r, hr, hv, ?_⟩
  rcases r with _ | ⟨p, per⟩
  · exact ⟨rfl, rfl, rfl⟩
  · have hu : p.unit = .A ∨ p.unit = .W := by cases p.unit <;> simp
    rcases hu with hu | hu <;> simp [toIP, content, hu, noLimit]

/-- The profile with the higher stack level decides during its daily two hours, the other one afterwards. -/
example : exDaily.inForce (some 900) 80000 90000 = some ⟨0, 32, some 3⟩ ∧ exDaily.inForce (some 900) 80000 95000 = none ∧
    exLow.inForce (some 900) 80000 90000 ≠ none ∧ exLow.inForce (some 900) 80000 95000 ≠ none ∧
    (generate sortByStack (allEntries 80000 100000 (some 900) [exLow, exDaily] .txDefault) 80000 100000 gapIP).map Step.start
      = [0, 7400, 11000, 14600] := by decide +kernel

/-! ## C16 -/

theorem composite_connector (sort : Sorter) (cfg : Config) (h : Handler) (evse : Nat) (he : evse ≠ 0) (unit : RUnit) (now stop : Int)
    (simulate : Bool) : composite sort cfg h evse unit now stop simulate =
      convertAll unit (configuredDefault cfg unit) cfg.phases cfg.voltage
        (connectorLimits sort cfg h (h.connectors[evse-1]?) now stop simulate) := by
  unfold composite
  rw [if_neg he]
  cases unit <;> rfl

/-- **C16 (connector).** For every instant of the window the composite limit of a connector is the lowest of the transaction limit
(the TxProfile in force, else the TxDefaultProfile in force; only with a running or simulated transaction) and of the
ChargePointMaxProfile limit, converted to the requested unit; it is the configured default if there is neither. -/
theorem C16_connector (sort : Sorter) (hsort : SortsByStack sort) (cfg : Config) (hcfg : cfg.Physical) (h : Handler) (hs : h.Sane)
    (evse : Nat) (he : evse ≠ 0) (c : Connector) (hc : h.connectors[evse-1]? = some c) (unit : RUnit) (now stop : Int)
    (simulate : Bool) (hw : stop - now ≤ intMax) (t : Int) (h1 : now ≤ t) (h2 : t < stop) :
    ∃ tx max o, TxDecides cfg c simulate now t tx ∧ Decides (StationProfile cfg h) (c.tx.map Tx.start) now t max ∧
      valueAt (composite sort cfg h evse unit now stop simulate) (t - now) = some o ∧
      Applies cfg unit ((tx.toList ++ max.toList).map limitOf) o := by
  have hcm : c ∈ h.connectors := List.mem_of_getElem? hc
  obtain ⟨tx, dtx, gtx, htx⟩ := evse_at sort hsort cfg h hs c hcm now stop simulate hw t h1 h2
  obtain ⟨mx, dmx, gmx, hmx⟩ := station_at sort hsort cfg h hs c.session now stop hw t h1 h2
  have wf := connectorLimits_wf sort cfg h (some c) simulate (show now < stop by omega) hw
  have hval : ∃ xs : List IP, valueAt (connectorLimits sort cfg h (some c) now stop simulate) (t - now) = some (lowestComb xs) ∧
      (∀ x ∈ xs, x = toIP tx ∨ x = toIP mx) ∧ xs.flatMap limits = (tx.toList ++ mx.toList).map limitOf := by
    unfold connectorLimits mergeLowest
    have hat := combine_at gapIP lowestComb
      (evseIntermediates sort (validProfiles cfg h (some c)) (validProfiles cfg h none) now stop c.session simulate ++
        [generate sort (allEntries now stop c.session (validProfiles cfg h none) .chargePointMax) now stop gapIP])
      (by simp) (stop - now) hw (by
        intro p hp
        rcases List.mem_append.1 hp with hp | hp
        · exact evseIntermediates_wf sort _ _ _ _ (by omega) hw p hp
        · rw [List.mem_singleton.1 hp]; exact generate_wf _ _ _ _ _ (by omega) hw) (t - now) (by omega)
    rw [List.filterMap_append] at hat
    simp only [List.filterMap_cons, List.filterMap_nil, hmx] at hat
    refine ⟨_, hat, ?_⟩
    by_cases ha : c.tx ≠ none ∨ simulate = true
    · rw [if_pos ha] at htx
      rw [htx]
      refine ⟨by simp, ?_⟩
      simp [limits_toIP gtx, limits_toIP gmx]
    · rw [if_neg ha] at htx
      have : tx = none := by
        unfold TxDecides at dtx; rw [if_neg ha] at dtx; exact dtx
      rw [htx, this]
      refine ⟨by simp, ?_⟩
      simp [limits_toIP gmx]
  obtain ⟨xs, hv, hxs, hfl⟩ := hval
  obtain ⟨o, ho, hsame⟩ := convertAll_at unit (configuredDefault cfg unit) cfg.phases cfg.voltage _ _ wf _ _ hv
  refine ⟨tx, mx, o, dtx, dmx, ?_, ?_⟩
  · rw [composite_connector sort cfg h evse he, hc]; exact ho
  · rw [← hfl]
    have good : ∀ x ∈ xs, ∃ r, Good r ∧ x = toIP r := by
      intro x hx
      rcases hxs x hx with h | h
      · exact ⟨tx, gtx, h⟩
      · exact ⟨mx, gmx, h⟩
    refine Applies.same (applies_of cfg hcfg unit xs ?_ ?_ ?_ ?_) hsame
    · intro x hx
      obtain ⟨r, hr, rfl⟩ := good x hx
      exact toIP_ok hr
    · intro x hx l hl
      obtain ⟨r, hr, rfl⟩ := good x hx
      rw [limits_toIP hr] at hl
      rcases r with _ | ⟨p, per⟩
      · cases hl
      · simp only [Option.toList_some, List.map_cons, List.map_nil, List.mem_singleton] at hl
        subst hl
        have := (hr.limit p per rfl).2
        simp only [limitOf]
        linarith
    · intro x hx hl
      obtain ⟨r, hr, rfl⟩ := good x hx
      rw [limits_toIP hr] at hl
      rcases r with _ | ⟨p, per⟩
      · rfl
      · simp at hl
    · intro x hx n hn
      obtain ⟨r, hr, rfl⟩ := good x hx
      rw [phases_toIP] at hn
      rcases r with _ | ⟨p, per⟩
      · cases hn
      · exact hr.phases p per n rfl hn

/-- Transaction limit 32 A on three phases, station limit 5000 W: 5000 / (230 · 3) A. -/
example : exHandler.Sane ∧ ({} : Config).Physical ∧
    (valueAt (composite sortByStack {} exHandler 1 .A 80000 100000 false) 8000).map Out.limit = some (5000 / 690) ∧
    (valueAt (composite sortByStack {} exHandler 1 .A 0 4000 false) 2000).map Out.limit = some 32 :=
  ⟨exHandler_sane, exConfig_physical, by decide +kernel, by decide +kernel⟩

/-- **C16 (never above).** Consequence in words: the composite limit of a connector never exceeds the station limit in force nor the
transaction limit in force. -/
theorem C16_never_above (cfg : Config) (unit : RUnit) (cs : List Limit) (o : Out) (ha : Applies cfg unit cs o) :
    ∀ l ∈ cs, o.limit ≤ l.inUnit unit cfg.voltage (o.phases.getD cfg.phases) := by
  intro l hl
  obtain ⟨h1, _, h3⟩ := ha
  have := (h3 (List.ne_nil_of_mem hl)).2 _ (List.mem_map.2 ⟨l, hl, rfl⟩)
  rw [h1]
  exact this

/-- **C16 (whole station).** The composite limit of the station is the lowest of: the sum over its connectors of limits in A (the
transaction limit if given in A, else the configured default), the same sum in W, and the ChargePointMaxProfile limit. The number of
phases of the sums is the highest of the connectors. (Relative ChargePointMaxProfiles count from the session of the last connector.) -/
theorem C16_station (sort : Sorter) (hsort : SortsByStack sort) (cfg : Config) (hcfg : cfg.Physical) (h : Handler) (hs : h.Sane)
    (hne : h.connectors ≠ []) (hlen : h.connectors.length ≤ 1000000) (unit : RUnit) (now stop : Int)
    (simulate : Bool) (hw : stop - now ≤ intMax) (t : Int) (h1 : now ≤ t) (h2 : t < stop) :
    ∃ (tx : Connector → Option (Profile × Period)) (max : Option (Profile × Period)) (o : Out),
      (∀ c ∈ h.connectors, TxDecides cfg c simulate now t (tx c)) ∧
      Decides (StationProfile cfg h) (h.connectors.getLast?.bind (fun c => c.tx.map Tx.start)) now t max ∧
      valueAt (composite sort cfg h 0 unit now stop simulate) (t - now) = some o ∧
      let rs := h.connectors.map tx
      let ph := highestPhases (rs.map fun r => r.bind (fun x => x.2.phases))
      Applies cfg unit ([⟨.A, sumOf cfg .A rs, ph⟩, ⟨.W, sumOf cfg .W rs, ph⟩] ++ max.toList.map limitOf) o := by
  have hex := fun (c : Connector) (hc : c ∈ h.connectors) => evse_at sort hsort cfg h hs c hc now stop simulate hw t h1 h2
  obtain ⟨mx, dmx, gmx, hmx⟩ := station_at sort hsort cfg h hs (h.connectors.getLast?.bind Connector.session) now stop hw t h1 h2
  classical
  let tx : Connector → Option (Profile × Period) := fun c => if hc : c ∈ h.connectors then (hex c hc).choose else none
  have htx : ∀ c (hc : c ∈ h.connectors), TxDecides cfg c simulate now t (tx c) ∧ Good (tx c) ∧
      valueAt (mergeLowest (evseIntermediates sort (validProfiles cfg h (some c)) (validProfiles cfg h none) now stop c.session simulate))
        (t - now) = some (toIP (tx c)) := by
    intro c hc
    have e : tx c = (hex c hc).choose := by simp only [tx, dif_pos hc]
    obtain ⟨d, g, v⟩ := (hex c hc).choose_spec
    rw [e]
    refine ⟨d, g, ?_⟩
    generalize (hex c hc).choose = r at d g v
    by_cases ha : c.tx ≠ none ∨ simulate = true
    · rw [if_pos ha] at v
      unfold mergeLowest
      have hn : evseIntermediates sort (validProfiles cfg h (some c)) (validProfiles cfg h none) now stop c.session simulate ≠ [] := by
        intro h0; rw [h0] at v; cases v
      rw [combine_at gapIP lowestComb _ hn (stop - now) hw
        (evseIntermediates_wf sort _ _ _ _ (by omega) hw) (t - now) (by omega), v, lowestComb_single g]
    · rw [if_neg ha] at v
      have : r = none := by unfold TxDecides at d; rw [if_neg ha] at d; exact d
      rw [v, this]
      show valueAt [⟨0, gapIP⟩] (t - now) = some gapIP
      exact valueAt_cons_of_none_later _ _ _ (by show (0 : Int) ≤ _; omega) (by simp)
  let rs := h.connectors.map tx
  have hrs : ∀ r ∈ rs, Good r := by
    intro r hr
    obtain ⟨c, hc, rfl⟩ := List.mem_map.1 hr
    exact (htx c hc).2.1
  have hsum : valueAt (mergeSum cfg.currentLimit cfg.powerLimit (h.connectors.map fun c =>
      mergeLowest (evseIntermediates sort (validProfiles cfg h (some c)) (validProfiles cfg h none) now stop c.session simulate)))
      (t - now) = some ⟨sumOf cfg .A rs, sumOf cfg .W rs, 0, 0, highestPhases (rs.map fun r => r.bind (fun x => x.2.phases))⟩ := by
    unfold mergeSum
    rw [combine_at gapIP _ _ (by simpa using hne) (stop - now) hw (by
      intro q hq
      obtain ⟨c, _, rfl⟩ := List.mem_map.1 hq
      exact evseSchedule_wf sort _ _ _ _ (by omega) hw) (t - now) (by omega)]
    rw [List.filterMap_map]
    have : h.connectors.filterMap ((fun p => valueAt p (t - now)) ∘ fun c =>
        mergeLowest (evseIntermediates sort (validProfiles cfg h (some c)) (validProfiles cfg h none) now stop c.session simulate)) =
        rs.map toIP := by
      simp only [rs, List.map_map]
      rw [filterMap_congr' (g := fun c => some ((toIP ∘ tx) c))]
      · rw [List.filterMap_eq_map']
      · intro c hc; exact (htx c hc).2.2
    rw [this, sumComb_toIP cfg rs hrs]
  have wf := stationLimits_wf sort cfg h simulate (show now < stop by omega) hw
  have hval : valueAt (stationLimits sort cfg h now stop simulate) (t - now) = some (lowestComb
      [⟨sumOf cfg .A rs, sumOf cfg .W rs, 0, 0, highestPhases (rs.map fun r => r.bind (fun x => x.2.phases))⟩, toIP mx]) := by
    unfold stationLimits
    unfold mergeLowest
    have hat := combine_at gapIP lowestComb [mergeSum cfg.currentLimit cfg.powerLimit (h.connectors.map fun c =>
        mergeLowest (evseIntermediates sort (validProfiles cfg h (some c)) (validProfiles cfg h none) now stop c.session simulate)),
        generate sort (allEntries now stop (h.connectors.getLast?.bind Connector.session) (validProfiles cfg h none) .chargePointMax)
          now stop gapIP]
      (by simp) (stop - now) hw (by
        intro p hp
        rcases List.mem_cons.1 hp with rfl | hp
        · apply combine_wf _ _ _ _ (by omega) hw
          intro q hq
          obtain ⟨c, _, rfl⟩ := List.mem_map.1 hq
          exact evseSchedule_wf sort _ _ _ _ (by omega) hw
        · rw [List.mem_singleton.1 hp]; exact generate_wf _ _ _ _ _ (by omega) hw) (t - now) (by omega)
    simp only [List.filterMap_cons, List.filterMap_nil, hsum, hmx] at hat
    exact hat
  obtain ⟨o, ho, hsame⟩ := convertAll_at unit (configuredDefault cfg unit) cfg.phases cfg.voltage _ _ wf _ _ hval
  refine ⟨tx, mx, o, fun c hc => (htx c hc).1, dmx, ?_, ?_⟩
  · have : composite sort cfg h 0 unit now stop simulate = convertAll unit (configuredDefault cfg unit) cfg.phases cfg.voltage
        (stationLimits sort cfg h now stop simulate) := by
      unfold composite; cases unit <;> rfl
    rw [this]; exact ho
  · show Applies cfg unit _ o
    have bA := sumOf_bound cfg hcfg .A rs hrs
    have bW := sumOf_bound cfg hcfg .W rs hrs
    have hl : ((rs.length : Nat) : Rat) ≤ 1000000 := by
      have : rs.length ≤ 1000000 := by simpa [rs] using hlen
      exact_mod_cast this
    have hl0 : (0 : Rat) ≤ ((rs.length : Nat) : Rat) := by exact_mod_cast Nat.zero_le _
    have fm := fltMax_big
    have hfl : [(⟨sumOf cfg .A rs, sumOf cfg .W rs, 0, 0, highestPhases (rs.map fun r => r.bind (fun x => x.2.phases))⟩ : IP),
        toIP mx].flatMap limits = [⟨.A, sumOf cfg .A rs, highestPhases (rs.map fun r => r.bind (fun x => x.2.phases))⟩,
          ⟨.W, sumOf cfg .W rs, highestPhases (rs.map fun r => r.bind (fun x => x.2.phases))⟩] ++ mx.toList.map limitOf := by
      simp only [List.flatMap_cons, List.flatMap_nil, List.append_nil, limits_toIP gmx]
      unfold limits
      simp [bA.1, bW.1]
    rw [← hfl]
    refine Applies.same (applies_of cfg hcfg unit _ ?_ ?_ ?_ ?_) hsame
    · intro x hx
      rcases List.mem_cons.1 hx with rfl | hx
      · refine ⟨Or.inr ⟨bA.1, ?_⟩, Or.inr ⟨bW.1, ?_⟩⟩
        · show sumOf cfg .A rs < fltMax
          nlinarith [bA.2]
        · show sumOf cfg .W rs < fltMax
          nlinarith [bW.2]
      · rw [List.mem_singleton.1 hx]; exact toIP_ok gmx
    · intro x hx l hlm
      rcases List.mem_cons.1 hx with rfl | hx
      · obtain ⟨_, _, h3⟩ := limits_mem.1 hlm
        rcases h3 with ⟨_, h3⟩ | ⟨_, h3⟩
        · rw [h3]; show sumOf cfg .A rs ≤ _; nlinarith [bA.2]
        · rw [h3]; show sumOf cfg .W rs ≤ _; nlinarith [bW.2]
      · rw [List.mem_singleton.1 hx, limits_toIP gmx] at hlm
        rcases mx with _ | ⟨p, per⟩
        · cases hlm
        · simp only [Option.toList_some, List.map_cons, List.map_nil, List.mem_singleton] at hlm
          subst hlm
          have := (gmx.limit p per rfl).2
          simp only [limitOf]
          linarith
    · intro x hx hlm
      rcases List.mem_cons.1 hx with rfl | hx
      · unfold limits at hlm; simp [bA.1] at hlm
      · rw [List.mem_singleton.1 hx] at hlm ⊢
        rw [limits_toIP gmx] at hlm
        rcases mx with _ | ⟨p, per⟩
        · rfl
        · simp at hlm
    · intro x hx n hn
      rcases List.mem_cons.1 hx with rfl | hx
      · have := highestPhases_mem hn
        obtain ⟨r, hr, hre⟩ := List.mem_map.1 this
        rcases r with _ | ⟨p, per⟩
        · cases hre
        · exact (hrs _ hr).phases p per n rfl hre
      · rw [List.mem_singleton.1 hx, phases_toIP] at hn
        rcases mx with _ | ⟨p, per⟩
        · cases hn
        · exact gmx.phases p per n rfl hn

/-- Two connectors, one with a transaction: 32 A plus the default 48 A; the station limit is 5000 W once it has started. -/
example : exHandler.Sane ∧ exHandler.connectors ≠ [] ∧
    (valueAt (composite sortByStack {} exHandler 0 .A 0 10000 false) 2000).map Out.limit = some 80 ∧
    (valueAt (composite sortByStack {} exHandler 0 .W 0 10000 false) 6000).map Out.limit = some 5000 :=
  ⟨exHandler_sane, by simp [exHandler], by decide +kernel, by decide +kernel⟩

/-! ## C17 -/

/-- **C17 (1.6).** The period list of every composite schedule starts at 0, its offsets strictly increase and are inside the window,
and consecutive periods differ in limit, number of phases or stack level. No assumption about the profiles is needed. -/
theorem C17_well_formed (sort : Sorter) (cfg : Config) (h : Handler) (evse : Nat) (unit : RUnit) (now stop : Int) (simulate : Bool)
    (h0 : now < stop) (hw : stop - now ≤ intMax) :
    WellFormed (composite sort cfg h evse unit now stop simulate) (stop - now) ∧
    (composite sort cfg h evse unit now stop simulate).IsChain
      (fun a b => ¬ (b.val.limit = a.val.limit ∧ b.val.phases = a.val.phases ∧ b.val.stackLevel = a.val.stackLevel)) := by
  unfold composite
  simp only
  refine convertAll_wf _ _ _ _ _ _ ?_
  split
  · exact stationLimits_wf sort cfg h simulate h0 hw
  · exact connectorLimits_wf sort cfg h _ simulate h0 hw

example : (composite sortByStack {} exHandler 1 .A 0 10000 false).map (fun s => (s.start, s.val.limit)) =
    [(0, 48), (900, 6), (1000, 32), (4600, 16), (5000, 5000 / 690), (8200, 6)] := by decide +kernel

/-- The schedule sent in answer to GetCompositeSchedule: well formed as well. -/
theorem C17_plain_well_formed (sort : Sorter) (cfg : Config) (h : Handler) (evse : Nat) (unit : RUnit) (now stop : Int)
    (simulate : Bool) (h0 : now < stop) (hw : stop - now ≤ intMax) :
    WellFormed (plainComposite sort cfg h evse unit now stop simulate) (stop - now) := by
  obtain ⟨⟨⟨v, rest, e⟩, h2, h3⟩, _⟩ := C17_well_formed sort cfg h evse unit now stop simulate h0 hw
  unfold plainComposite
  refine ⟨?_, ?_, ?_⟩
  · rw [e]; exact ⟨_, _, rfl⟩
  · rw [List.pairwise_map]; exact h2
  · intro s hs
    obtain ⟨x, hx, rfl⟩ := List.mem_map.1 hs
    exact h3 x hx

example : (0 : Int) < 100 ∧ (100 : Int) - 0 ≤ intMax := by decide

/-- Two TxDefaultProfiles with the same limit and different stack levels, one of them limited to an hour. -/
def exSame : Handler :=
  { cpMax := [],
    connectors := [⟨some ⟨1, 0⟩, [exLow, { exLow with id := 9, stack := 5, duration := some 3600 }], []⟩] }

/-- **C17 (violated for the plain schedule).** The schedule sent to the CSMS can contain consecutive periods that do not differ,
because the stack level that made them different is dropped. -/
theorem C17_plain_violated : ∃ (sort : Sorter) (cfg : Config) (h : Handler), SortsByStack sort ∧
    ¬ (plainComposite sort cfg h 1 .A 0 7200 false).IsChain (fun a b => b.val ≠ a.val) :=
  ⟨sortByStack, {}, exSame, sortByStack_sorts, by decide +kernel⟩

/-! ## C18 -/

/-- **C18.** For a recurring profile with start `ss` and period `P`, the start times used for a window are congruent to `ss` modulo
`P`, exactly one of them is in force at any instant `t` of the window, that is, lies in `(t - P, t]`, and the recurrence in force at `t`
uses exactly that start time. -/
theorem C18_recurring (now stop : Int) (session : Option Int) (p : Profile) (r : Recur) (ss : Int) (hk : p.kind = .recurring)
    (hr : p.recur = some r) (hss : p.startSchedule = some ss) (P : Int)
    (hP : P = match r with | .daily => 86400 | .weekly => 604800) :
    (∀ x ∈ calcStart now stop session p, (x - ss) % P = 0) ∧
    ∀ t, now ≤ t → t < stop →
      (∃ x, x ∈ calcStart now stop session p ∧ t - P < x ∧ x ≤ t ∧
        (∀ y ∈ calcStart now stop session p, t - P < y → y ≤ t → y = x)) ∧
      ∀ x nx, (x, nx) ∈ withNext (calcStart now stop session p) → x ≤ t → (∀ y, nx = some y → t < y) →
        (x - ss) % P = 0 ∧ t - P < x ∧ x ≤ t := by
  have hP' : P = r.secs := by rw [hP]; cases r <;> rfl
  have hp : 0 < P := by rw [hP']; exact r.secs_pos
  have e : calcStart now stop session p = recurStarts P stop (stop - (now - goBack P now ss) + 1).toNat (now - goBack P now ss) := by
    unfold calcStart; rw [hk, hr, hss, hP']
  have hg := goBack_eq P now ss hp
  have hg1 := Int.emod_nonneg (now - ss) (Int.ne_of_gt hp)
  have hg2 := Int.emod_lt_of_pos (now - ss) hp
  rw [e]
  generalize hs0 : now - goBack P now ss = s0
  have hs0' : (s0 - ss) % P = 0 := by
    rw [← hs0, hg]
    have : now - (now - ss) % P - ss = (now - ss) - (now - ss) % P := by omega
    rw [this]
    have h9 := Int.emod_add_mul_ediv (now - ss) P
    have h8 : now - ss - (now - ss) % P = P * ((now - ss) / P) := by omega
    rw [h8]
    exact Int.mul_emod_right _ _
  have cong : ∀ x, (x - s0) % P = 0 → (x - ss) % P = 0 := by
    intro x hx
    have : x - ss = (x - s0) + (s0 - ss) := by omega
    rw [this, Int.add_emod, hx, hs0']; simp
  have hfuel : stop - s0 < ((stop - s0 + 1).toNat : Int) := by omega
  have mem := recurStarts_mem P stop hp (stop - s0 + 1).toNat s0 hfuel
  have withNext_of : ∀ (l : List Int) x, x ∈ l → ∃ nx, (x, nx) ∈ withNext l := by
    intro l
    induction l with
    | nil => intro x hx; cases hx
    | cons a l ih =>
      intro x hx
      cases l with
      | nil => rw [List.mem_singleton.1 hx]; exact ⟨none, by simp [withNext]⟩
      | cons b l =>
        rcases List.mem_cons.1 hx with rfl | hx
        · exact ⟨some b, by simp [withNext]⟩
        · obtain ⟨nx, h⟩ := ih x hx
          exact ⟨nx, by simp only [withNext]; exact List.mem_cons_of_mem _ h⟩
  have of_withNext : ∀ (l : List Int) x nx, (x, nx) ∈ withNext l → x ∈ l := by
    intro l
    induction l with
    | nil => intro x nx hx; simp [withNext] at hx
    | cons a l ih =>
      intro x nx hx
      cases l with
      | nil => simp [withNext] at hx; simp [hx.1]
      | cons b l =>
        simp only [withNext, List.mem_cons] at hx
        rcases hx with hx | hx
        · injection hx with h1 h2; simp [h1]
        · exact List.mem_cons_of_mem _ (ih x nx hx)
  have hcong : ∀ x ∈ recurStarts P stop (stop - s0 + 1).toNat s0, (x - ss) % P = 0 := by
    intro x hx
    obtain ⟨nx, h⟩ := withNext_of _ x hx
    exact cong x (mem x nx h).2.1
  refine ⟨hcong, ?_⟩
  intro t h1 h2
  refine ⟨?_, ?_⟩
  · obtain ⟨x, nx, c1, c2, c3⟩ := recurStarts_covers P stop hp (stop - s0 + 1).toNat s0 t hfuel (by omega) (by omega)
    have hx := of_withNext _ x nx c1
    refine ⟨x, hx, by omega, c2, ?_⟩
    intro y hy y1 y2
    exact emod_unique hp (hcong y hy) (hcong x hx) t y2 (by omega) c2 c3
  · intro x nx hx hxt hnx
    obtain ⟨m1, m2, m3, m4⟩ := mem x nx hx
    refine ⟨cong x m2, ?_, hxt⟩
    rcases m4 with m4 | ⟨_, m4⟩
    · have := hnx _ m4; omega
    · omega

example : calcStart 80000 300000 none exDaily = [1000, 87400, 173800, 260200] := by decide

/-- **C50 (violated).** A recurring profile is applied before its `startSchedule`: here the start is at 1000 and the profile limits
the composite schedule at instant 100, which the recurrence one day earlier covers. -/
theorem C50_violated : ∃ (p : Profile) (ss t : Int), p.Ordered ∧ p.kind = .recurring ∧ p.startSchedule = some ss ∧ t < ss ∧
    ∃ x, valueAt (generate sortByStack (allEntries 0 1000 none [p] .txDefault) 0 1000 gapIP) t = some x ∧ x.cur = 16 :=
  ⟨{ exDaily with duration := none }, 1000, 100, ⟨⟨_, _, rfl, rfl⟩, by decide, by decide⟩, rfl, rfl, by decide,
    ⟨16, -1, 2, 0, some 3⟩, by decide +kernel, rfl⟩

end Verif.SC16
