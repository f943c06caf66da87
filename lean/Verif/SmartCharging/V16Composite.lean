import Verif.SmartCharging.V16Lemmas

/-! The composite schedule of a connector and of the station at one instant. -/

set_option linter.unusedSimpArgs false

namespace Verif.SC16
open Verif.SC

/-- Contents for a deciding profile. -/
def toIP (r : Option (Profile × Period)) : IP := match r with
  | some (p, per) => content p per
  | none => gapIP

theorem generate_decides (sort : Sorter) (hsort : SortsByStack sort) (now stop : Int) (session : Option Int)
    (ps : List Profile) (purpose : Purpose) (hps : ∀ p ∈ ps, p.purpose = purpose → p.Ordered) (hw : stop - now ≤ intMax)
    (t : Int) (h1 : now ≤ t) (h2 : t < stop) :
    ∃ r, Decides (fun p => p ∈ ps ∧ p.purpose = purpose) session now t r ∧
      valueAt (generate sort (allEntries now stop session ps purpose) now stop gapIP) (t - now) = some (toIP r) := by
  obtain ⟨r, hr, hv⟩ := decides_of_genValue sort hsort now stop session ps purpose hps t h1 h2
  refine ⟨r, hr, ?_⟩
  rw [generate_at sort hsort _ now stop gapIP hw t h1 h2, hv]
  rcases r with _ | ⟨p, per⟩ <;> rfl

theorem Decides.congr {S S' : Profile → Prop} (h : ∀ p, S p ↔ S' p) {session : Option Int} {now t : Int}
    {r : Option (Profile × Period)} (hd : Decides S session now t r) : Decides S' session now t r := by
  have : S = S' := funext fun p => propext (h p)
  exact this ▸ hd

theorem inForce_mem {p : Profile} {session : Option Int} {now t : Int} {per : Period} (h : p.inForce session now t = some per) :
    per ∈ p.periods := by
  unfold Profile.inForce at h
  split at h
  · cases h
  · split at h
    · unfold Profile.periodAt at h
      have := List.mem_of_getLast? h
      exact (List.mem_filter.1 this).1
    · cases h

theorem fltMax_big : (3000000000000000000000000 : Rat) < fltMax := by unfold fltMax; norm_num

/-- Values that occur. -/
structure Good (r : Option (Profile × Period)) : Prop where
  limit : ∀ p per, r = some (p, per) → 0 ≤ per.limit ∧ per.limit ≤ 1000000000000
  phases : ∀ p per n, r = some (p, per) → per.phases = some n → 1 ≤ n ∧ n ≤ 3

theorem Decides.good {S : Profile → Prop} (hS : ∀ p, S p → p.Physical) {session : Option Int} {now t : Int}
    {r : Option (Profile × Period)} (hd : Decides S session now t r) : Good r := by
  constructor
  · rintro p per rfl
    exact (hS p hd.1).limit per (inForce_mem hd.2.1)
  · rintro p per n rfl hn
    exact (hS p hd.1).phases per (inForce_mem hd.2.1) n hn

theorem noLimit_cases (x : Rat) (h : 0 ≤ x ∧ x ≤ 1000000000000) : x ≠ noLimit ∧ x < fltMax :=
  ⟨by intro h'; rw [h'] at h; exact noLimit_neg h.1, by linarith [fltMax_big, h.2]⟩

theorem toIP_ok {r : Option (Profile × Period)} (h : Good r) : (toIP r).Ok := by
  rcases r with _ | ⟨p, per⟩
  · exact ⟨Or.inl rfl, Or.inl rfl⟩
  · have hl := h.limit p per rfl
    have := noLimit_cases _ hl
    simp only [toIP]
    unfold content
    cases p.unit
    · exact ⟨Or.inr ⟨hl.1, this.2⟩, Or.inl rfl⟩
    · exact ⟨Or.inl rfl, Or.inr ⟨hl.1, this.2⟩⟩

theorem limits_toIP {r : Option (Profile × Period)} (h : Good r) : limits (toIP r) = (r.toList.map limitOf) := by
  rcases r with _ | ⟨p, per⟩
  · simp [toIP, gapIP, limits, noLimit_neg]
  · have hl := h.limit p per rfl
    simp only [toIP, Option.toList_some, List.map_cons, List.map_nil, limitOf]
    unfold content limits
    cases p.unit <;> simp [hl.1, noLimit_neg]

theorem phases_toIP (r : Option (Profile × Period)) : (toIP r).phases = r.bind (fun x => x.2.phases) := by
  rcases r with _ | ⟨p, per⟩
  · rfl
  · simp only [toIP, Option.bind_some]; unfold content; cases p.unit <;> rfl

theorem txComb_pair (a b : Option (Profile × Period)) (ha : Good a) (hb : Good b) :
    txComb [toIP a, toIP b] = toIP (match a with | some x => some x | none => b) := by
  have key : ∀ (r : Option (Profile × Period)), Good r → ((toIP r).cur ≠ noLimit ∨ (toIP r).pow ≠ noLimit ↔ r ≠ none) := by
    intro r hr
    rcases r with _ | ⟨p, per⟩
    · simp [toIP, gapIP]
    · have := noLimit_cases _ (hr.limit p per rfl)
      simp only [toIP]; unfold content; cases p.unit <;> simp [this.1]
  simp only [txComb]
  rcases a with _ | ⟨p, per⟩
  · rw [if_neg (by rw [key _ ha]; simp)]
    rcases b with _ | ⟨p, per⟩
    · rw [if_neg (by rw [key _ hb]; simp)]; rfl
    · rw [if_pos (by rw [key _ hb]; simp)]
  · rw [if_pos (by rw [key _ ha]; simp)]

/-! ## Which profiles count -/

theorem mem_tx {cfg : Config} {h : Handler} (hw : h.WF) {c : Connector} (hc : c ∈ h.connectors) (p : Profile) :
    (p ∈ validProfiles cfg h (some c) ++ validProfiles cfg h none ∧ p.purpose = .tx) ↔ TxProfileOf cfg c p := by
  have e1 : ∀ p ∈ h.cpMax, p.purpose ≠ .tx := fun p hp => by rw [hw.cpMax p hp]; decide
  have e2 : ∀ p ∈ c.txDefault, p.purpose ≠ .tx := fun p hp => by rw [hw.txDefault c hc p hp]; decide
  have e3 := hw.tx c hc
  have e4 : txProfileApplies c.tx p = true ↔ (p.txId = none ∨ ∃ tx, c.tx = some tx ∧ p.txId = some tx.id) := by
    unfold txProfileApplies
    cases p.txId with
    | none => simp
    | some i =>
      cases c.tx with
      | none => simp
      | some tx => simp [eq_comm]
  unfold validProfiles TxProfileOf
  simp only [List.mem_append]
  constructor
  · rintro ⟨hp, hpu⟩
    rcases hp with ((hp | hp | hp) | (hp | hp))
    · split at hp
      · cases hp
      · exact absurd hpu (e1 p hp)
    · split at hp
      · cases hp
      · rename_i hi
        exact ⟨(List.mem_filter.1 hp).1, hi, e4.1 (List.mem_filter.1 hp).2⟩
    · split at hp
      · cases hp
      · exact absurd hpu (e2 p hp)
    · split at hp
      · cases hp
      · exact absurd hpu (e1 p hp)
    · cases hp
  · rintro ⟨hp, hi, hap⟩
    refine ⟨Or.inl (Or.inr (Or.inl ?_)), e3 p hp⟩
    rw [if_neg hi]
    exact List.mem_filter.2 ⟨hp, e4.2 hap⟩

theorem mem_txDefault {cfg : Config} {h : Handler} (hw : h.WF) {c : Connector} (hc : c ∈ h.connectors) (p : Profile) :
    (p ∈ validProfiles cfg h (some c) ++ validProfiles cfg h none ∧ p.purpose = .txDefault) ↔ TxDefaultOf cfg c p := by
  have e1 : ∀ p ∈ h.cpMax, p.purpose ≠ .txDefault := fun p hp => by rw [hw.cpMax p hp]; decide
  have e2 : ∀ p ∈ c.txProfiles, p.purpose ≠ .txDefault := fun p hp => by rw [hw.tx c hc p hp]; decide
  have e3 := hw.txDefault c hc
  unfold validProfiles TxDefaultOf
  simp only [List.mem_append]
  constructor
  · rintro ⟨hp, hpu⟩
    rcases hp with ((hp | hp | hp) | (hp | hp))
    · split at hp
      · cases hp
      · exact absurd hpu (e1 p hp)
    · split at hp
      · cases hp
      · exact absurd hpu (e2 p (List.mem_filter.1 hp).1)
    · split at hp
      · cases hp
      · rename_i hi; exact ⟨hp, hi⟩
    · split at hp
      · cases hp
      · exact absurd hpu (e1 p hp)
    · cases hp
  · rintro ⟨hp, hi⟩
    refine ⟨Or.inl (Or.inr (Or.inr ?_)), e3 p hp⟩
    rw [if_neg hi]
    exact hp

theorem mem_station {cfg : Config} {h : Handler} (hw : h.WF) (p : Profile) :
    (p ∈ validProfiles cfg h none ∧ p.purpose = .chargePointMax) ↔ StationProfile cfg h p := by
  unfold validProfiles StationProfile
  simp only [List.append_nil]
  constructor
  · rintro ⟨hp, _⟩
    split at hp
    · cases hp
    · rename_i hi; exact ⟨hp, hi⟩
  · rintro ⟨hp, hi⟩
    rw [if_neg hi]
    exact ⟨hp, hw.cpMax p hp⟩

/-! ## The parts of the calculation -/

theorem mergeTx_wf {a b : List (Step IP)} {dur : Int} (h0 : 0 < dur) (hd : dur ≤ intMax) (ha : WellFormed a dur) (hb : WellFormed b dur) :
    WellFormed (mergeTx a b) dur := by
  apply combine_wf _ _ _ dur h0 hd
  intro p hp
  rcases List.mem_cons.1 hp with rfl | hp
  · exact ha
  · rw [List.mem_singleton.1 hp]; exact hb

theorem evseIntermediates_wf (sort : Sorter) (a b : List Profile) {now stop : Int} (session : Option Int) (simulate : Bool)
    (h0 : now < stop) (hw : stop - now ≤ intMax) :
    ∀ l ∈ evseIntermediates sort a b now stop session simulate, WellFormed l (stop - now) := by
  intro l hl
  unfold evseIntermediates at hl
  simp only at hl
  split at hl
  · rw [List.mem_singleton.1 hl]
    exact mergeTx_wf (by omega) hw (generate_wf _ _ _ _ _ h0 hw) (generate_wf _ _ _ _ _ h0 hw)
  · cases hl

theorem connectorLimits_wf (sort : Sorter) (cfg : Config) (h : Handler) (c : Option Connector) {now stop : Int} (simulate : Bool)
    (h0 : now < stop) (hw : stop - now ≤ intMax) : WellFormed (connectorLimits sort cfg h c now stop simulate) (stop - now) := by
  unfold connectorLimits mergeLowest
  apply combine_wf _ _ _ _ (by omega) hw
  intro p hp
  rcases List.mem_append.1 hp with hp | hp
  · exact evseIntermediates_wf sort _ _ _ _ h0 hw p hp
  · rw [List.mem_singleton.1 hp]; exact generate_wf _ _ _ _ _ h0 hw

theorem evseSchedule_wf (sort : Sorter) (a b : List Profile) {now stop : Int} (session : Option Int) (simulate : Bool)
    (h0 : now < stop) (hw : stop - now ≤ intMax) :
    WellFormed (mergeLowest (evseIntermediates sort a b now stop session simulate)) (stop - now) :=
  combine_wf _ _ _ _ (by omega) hw (evseIntermediates_wf sort a b session simulate h0 hw)

theorem stationLimits_wf (sort : Sorter) (cfg : Config) (h : Handler) {now stop : Int} (simulate : Bool)
    (h0 : now < stop) (hw : stop - now ≤ intMax) : WellFormed (stationLimits sort cfg h now stop simulate) (stop - now) := by
  unfold stationLimits
  apply combine_wf _ _ _ _ (by omega) hw
  intro p hp
  rcases List.mem_cons.1 hp with rfl | hp
  · apply combine_wf _ _ _ _ (by omega) hw
    intro q hq
    obtain ⟨c, _, rfl⟩ := List.mem_map.1 hq
    exact evseSchedule_wf sort _ _ _ _ h0 hw
  · rw [List.mem_singleton.1 hp]; exact generate_wf _ _ _ _ _ h0 hw

/-- The transaction limit of one connector. -/
theorem evse_at (sort : Sorter) (hsort : SortsByStack sort) (cfg : Config) (h : Handler) (hs : h.Sane) (c : Connector)
    (hc : c ∈ h.connectors) (now stop : Int) (simulate : Bool) (hw : stop - now ≤ intMax) (t : Int) (h1 : now ≤ t) (h2 : t < stop) :
    ∃ r, TxDecides cfg c simulate now t r ∧ Good r ∧
      (if c.tx ≠ none ∨ simulate = true then
        (evseIntermediates sort (validProfiles cfg h (some c)) (validProfiles cfg h none) now stop c.session simulate).filterMap
          (fun p => valueAt p (t - now)) = [toIP r]
      else evseIntermediates sort (validProfiles cfg h (some c)) (validProfiles cfg h none) now stop c.session simulate = []) := by
  have hact : (c.session.isSome || simulate) = true ↔ (c.tx ≠ none ∨ simulate = true) := by
    unfold Connector.session
    cases c.tx <;> simp
  unfold evseIntermediates TxDecides
  simp only
  by_cases ha : c.tx ≠ none ∨ simulate = true
  · rw [if_pos (hact.2 ha)]
    simp only [if_pos ha]
    have o1 : ∀ p ∈ validProfiles cfg h (some c) ++ validProfiles cfg h none, p.purpose = .tx → p.Ordered :=
      fun p hp hpu => (hs.tx c hc p ((mem_tx hs.wf hc p).1 ⟨hp, hpu⟩).1).1
    have o2 : ∀ p ∈ validProfiles cfg h (some c) ++ validProfiles cfg h none, p.purpose = .txDefault → p.Ordered :=
      fun p hp hpu => (hs.txDefault c hc p ((mem_txDefault hs.wf hc p).1 ⟨hp, hpu⟩).1).1
    obtain ⟨a, da, va⟩ := generate_decides sort hsort now stop c.session _ .tx o1 hw t h1 h2
    obtain ⟨b, db, vb⟩ := generate_decides sort hsort now stop c.session _ .txDefault o2 hw t h1 h2
    have da' := da.congr (mem_tx hs.wf hc)
    have db' := db.congr (mem_txDefault hs.wf hc)
    have ga : Good a := da'.good (fun p hp => (hs.tx c hc p hp.1).2)
    have gb : Good b := db'.good (fun p hp => (hs.txDefault c hc p hp.1).2)
    refine ⟨_, ⟨a, b, da', db', rfl⟩, ?_, ?_⟩
    · cases a <;> assumption
    · have w1 := generate_wf sort (allEntries now stop c.session (validProfiles cfg h (some c) ++ validProfiles cfg h none) .tx) now stop
        gapIP (by omega) hw
      have w2 := generate_wf sort (allEntries now stop c.session (validProfiles cfg h (some c) ++ validProfiles cfg h none) .txDefault)
        now stop gapIP (by omega) hw
      have hv := combine_at gapIP txComb
        [generate sort (allEntries now stop c.session (validProfiles cfg h (some c) ++ validProfiles cfg h none) .tx) now stop gapIP,
         generate sort (allEntries now stop c.session (validProfiles cfg h (some c) ++ validProfiles cfg h none) .txDefault) now stop gapIP]
        (by simp) (stop - now) hw (by
        intro p hp
        rcases List.mem_cons.1 hp with rfl | hp
        · exact w1
        · rw [List.mem_singleton.1 hp]; exact w2) (t - now) (by omega)
      simp only [List.filterMap_cons, List.filterMap_nil, va, vb, txComb_pair a b ga gb] at hv
      unfold mergeTx
      simp only [List.filterMap_cons, List.filterMap_nil, hv]
      cases a <;> rfl
  · rw [if_neg (fun h => ha (hact.1 h))]
    simp only [if_neg ha]
    exact ⟨none, rfl, ⟨(by simp), (by simp)⟩, trivial⟩

/-- The station limit. -/
theorem station_at (sort : Sorter) (hsort : SortsByStack sort) (cfg : Config) (h : Handler) (hs : h.Sane)
    (session : Option Int) (now stop : Int) (hw : stop - now ≤ intMax) (t : Int) (h1 : now ≤ t) (h2 : t < stop) :
    ∃ r, Decides (StationProfile cfg h) session now t r ∧ Good r ∧
      valueAt (generate sort (allEntries now stop session (validProfiles cfg h none) .chargePointMax) now stop gapIP) (t - now) =
        some (toIP r) := by
  have o : ∀ p ∈ validProfiles cfg h none, p.purpose = .chargePointMax → p.Ordered :=
    fun p hp hpu => (hs.cpMax p ((mem_station hs.wf p).1 ⟨hp, hpu⟩).1).1
  obtain ⟨a, da, va⟩ := generate_decides sort hsort now stop session _ .chargePointMax o hw t h1 h2
  have da' := da.congr (mem_station hs.wf)
  exact ⟨a, da', da'.good (fun p hp => (hs.cpMax p hp.1).2), va⟩

/-! ## Final conversion -/

theorem lowestPhases_append (a b : List (Option Int)) (h : ∀ x, some x ∈ a ↔ some x ∈ b) : lowestPhases a = lowestPhases b := by
  have mem : ∀ (l : List (Option Int)) x, x ∈ l.filterMap id ↔ some x ∈ l := by
    intro l x; simp [List.mem_filterMap]
  unfold lowestPhases
  cases ha : (a.filterMap id).min? with
  | none =>
    rw [List.min?_eq_none_iff] at ha
    symm
    rw [List.min?_eq_none_iff, List.eq_nil_iff_forall_not_mem]
    intro x hx
    rw [mem, ← h, ← mem, ha] at hx
    cases hx
  | some m =>
    symm
    rw [List.min?_eq_some_iff] at ha ⊢
    refine ⟨?_, ?_⟩
    · rw [mem, ← h, ← mem]; exact ha.1
    · intro b hb; rw [mem, ← h, ← mem] at hb; exact ha.2 b hb

theorem lowestPhases_mem {l : List (Option Int)} {n : Int} (h : lowestPhases l = some n) : some n ∈ l := by
  unfold lowestPhases at h
  have := List.min?_mem h
  simpa [List.mem_filterMap] using this

theorem applies_of (cfg : Config) (hcfg : cfg.Physical) (unit : RUnit) (xs : List IP) (hok : ∀ x ∈ xs, x.Ok)
    (hval : ∀ x ∈ xs, ∀ l ∈ limits x, l.value ≤ 1000000000000000000)
    (hgap : ∀ x ∈ xs, limits x = [] → x.phases = none)
    (hph : ∀ x ∈ xs, ∀ n, x.phases = some n → 1 ≤ n ∧ n ≤ 3) :
    Applies cfg unit (xs.flatMap limits)
      (convert unit (configuredDefault cfg unit) cfg.phases cfg.voltage (lowestComb xs)) := by
  have e : lowestPhases ((xs.flatMap limits).map Limit.phases) = lowestPhases (xs.map IP.phases) := by
    apply lowestPhases_append
    intro n
    simp only [List.mem_map, List.mem_flatMap]
    constructor
    · rintro ⟨l, ⟨x, hx, hl⟩, he⟩
      exact ⟨x, hx, by rw [← (limits_mem.1 hl).1]; exact he⟩
    · rintro ⟨x, hx, he⟩
      have hne : limits x ≠ [] := fun h => by rw [hgap x hx h] at he; cases he
      obtain ⟨l, hl⟩ := List.exists_mem_of_ne_nil _ hne
      exact ⟨l, ⟨x, hx, hl⟩, by rw [(limits_mem.1 hl).1]; exact he⟩
  unfold Applies
  simp only [e]
  have hn : 1 ≤ (lowestPhases (xs.map IP.phases)).getD cfg.phases ∧ (lowestPhases (xs.map IP.phases)).getD cfg.phases ≤ 3 := by
    cases hl : lowestPhases (xs.map IP.phases) with
    | none => exact hcfg.phases
    | some n =>
      obtain ⟨x, hx, hxe⟩ := List.mem_map.1 (lowestPhases_mem hl)
      exact hph x hx n hxe
  have hv : 0 < cfg.voltage := by linarith [hcfg.voltage.1]
  have hn1 : (1 : Rat) ≤ ((lowestPhases (xs.map IP.phases)).getD cfg.phases : Int) := by exact_mod_cast hn.1
  have hn3 : (((lowestPhases (xs.map IP.phases)).getD cfg.phases : Int) : Rat) ≤ 3 := by exact_mod_cast hn.2
  obtain ⟨c1, c2, c3⟩ := lowest_convert unit (configuredDefault cfg unit) cfg.phases cfg.voltage xs
    hok hv (by omega) (by
      intro x hx l hl
      have h1 := hval x hx l hl
      have h0 := (limits_mem.1 hl).2.1
      generalize ((lowestPhases (xs.map IP.phases)).getD cfg.phases : Int) = n at hn1 hn3
      obtain ⟨v1, v2⟩ := hcfg.voltage
      have p1 : 1 ≤ cfg.voltage * (n : Rat) := by nlinarith
      have p2 : cfg.voltage * (n : Rat) ≤ 3000000 := by nlinarith
      have p3 : l.value * (cfg.voltage * (n : Rat)) ≤ 1000000000000000000 * 3000000 := by
        apply mul_le_mul h1 p2 (by linarith) (by norm_num)
      have p4 : l.value / (cfg.voltage * (n : Rat)) ≤ l.value := div_le_self h0 p1
      have := fltMax_big
      unfold Limit.inUnit
      cases l.unit <;> cases unit <;> simp only <;> linarith)
  refine ⟨c1, ?_, ?_⟩
  · intro h
    apply c2
    intro x hx
    rw [List.flatMap_eq_nil_iff] at h
    exact h x hx
  · intro h
    apply c3
    by_contra hno
    apply h
    rw [List.flatMap_eq_nil_iff]
    intro x hx
    by_contra hne
    exact hno ⟨x, hx, hne⟩

theorem Applies.same {cfg : Config} {unit : RUnit} {cs : List Limit} {o o' : Out} (h : Applies cfg unit cs o) (hs : o'.Same o) :
    Applies cfg unit cs o' := by
  obtain ⟨s1, s2, _⟩ := hs
  unfold Applies at *
  rw [s1, s2]
  exact h

theorem convertAll_at (unit : RUnit) (dl : Rat) (dp : Int) (v : Rat) (l : List (Step IP)) (dur : Int) (hw : WellFormed l dur) (t : Int)
    (x : IP) (hx : valueAt l t = some x) :
    ∃ o, valueAt (convertAll unit dl dp v l) t = some o ∧ o.Same (convert unit dl dp v x) := by
  unfold convertAll
  have h := dedup_valueAt (l.map fun s => ⟨s.start, convert unit dl dp v s.val⟩) none t (by
    rw [List.pairwise_map]; exact hw.increasing)
  rw [valueAt_map, hx] at h
  simp only [Option.map_some] at h
  rcases h with h | ⟨_, x, hx, _⟩
  · exact h
  · cases hx

theorem convertAll_wf (unit : RUnit) (dl : Rat) (dp : Int) (v : Rat) (l : List (Step IP)) (dur : Int) (hw : WellFormed l dur) :
    WellFormed (convertAll unit dl dp v l) dur ∧ (convertAll unit dl dp v l).IsChain (fun a b => ¬ b.val.Same a.val) := by
  unfold convertAll
  refine ⟨⟨?_, ?_, ?_⟩, (dedup_differ _ none).2⟩
  · obtain ⟨w, rest, e⟩ := hw.first
    rw [e]
    exact ⟨_, _, rfl⟩
  · apply List.Pairwise.sublist (dedup_sublist _ _)
    rw [List.pairwise_map]; exact hw.increasing
  · intro s hs
    obtain ⟨x, hx, rfl⟩ := List.mem_map.1 (dedup_mem _ _ s hs)
    exact hw.inside x hx

/-! ## Summing over the connectors -/

theorem lowestComb_single {r : Option (Profile × Period)} (h : Good r) : lowestComb [toIP r] = toIP r := by
  have f0 : (0 : Rat) ≤ fltMax := by linarith [fltMax_big]
  rcases r with _ | ⟨p, per⟩
  · simp [lowestComb, lowestStep, toIP, gapIP, noLimit_neg, pickPhases]
  · obtain ⟨a, b⟩ := h.limit p per rfl
    have hc := noLimit_cases _ ⟨a, b⟩
    have hne : per.limit ≠ fltMax := ne_of_lt hc.2
    simp only [toIP]
    unfold content
    cases p.unit <;> simp [lowestComb, lowestStep, noLimit_neg, pickPhases, a, hc.2, hne]

theorem sum_fold (cd pd : Rat) (xs : List IP) : ∀ acc : IP, acc.stackCur = 0 → acc.stackPow = 0 →
    xs.foldl (fun (acc x : IP) =>
      { cur := acc.cur + (if (0 : Rat) ≤ x.cur then x.cur else cd),
        pow := acc.pow + (if (0 : Rat) ≤ x.pow then x.pow else pd),
        stackCur := 0, stackPow := 0,
        phases := pickPhases (fun b a => decide (b > a)) acc.phases x.phases : IP }) acc =
      ⟨acc.cur + (xs.map fun x => if (0 : Rat) ≤ x.cur then x.cur else cd).sum,
       acc.pow + (xs.map fun x => if (0 : Rat) ≤ x.pow then x.pow else pd).sum, 0, 0,
       (xs.map IP.phases).foldl (pickPhases (fun b a => decide (b > a))) acc.phases⟩ := by
  induction xs with
  | nil => intro acc h1 h2; cases acc; simp_all
  | cons x xs ih =>
    intro acc h1 h2
    rw [List.foldl_cons, ih _ rfl rfl]
    simp only [List.map_cons, List.sum_cons, List.foldl_cons, add_assoc]

theorem sumComb_toIP (cfg : Config) (rs : List (Option (Profile × Period))) (hr : ∀ r ∈ rs, Good r) :
    sumComb cfg.currentLimit cfg.powerLimit (rs.map toIP) =
      ⟨sumOf cfg .A rs, sumOf cfg .W rs, 0, 0, highestPhases (rs.map fun r => r.bind (fun x => x.2.phases))⟩ := by
  unfold sumComb
  rw [sum_fold _ _ _ _ rfl rfl, pickHigh_fold]
  unfold sumOf
  simp only [zero_add, List.map_map]
  have key : ∀ r, Good r →
      ((if (0 : Rat) ≤ (toIP r).cur then (toIP r).cur else cfg.currentLimit) = share cfg .A r) ∧
      ((if (0 : Rat) ≤ (toIP r).pow then (toIP r).pow else cfg.powerLimit) = share cfg .W r) := by
    intro r hr
    rcases r with _ | ⟨p, per⟩
    · simp [toIP, gapIP, noLimit_neg, share, configuredDefault]
    · obtain ⟨a, _⟩ := hr.limit p per rfl
      simp only [toIP, share, configuredDefault]
      have hu : p.unit = .A ∨ p.unit = .W := by cases p.unit <;> simp
      rcases hu with hu | hu <;> simp [content, hu, noLimit_neg, a]
  congr 1
  · congr 1
    apply List.map_congr_left
    intro r hrm
    exact (key r (hr r hrm)).1
  · congr 1
    apply List.map_congr_left
    intro r hrm
    exact (key r (hr r hrm)).2
  · have : List.map (IP.phases ∘ toIP) rs = rs.map fun r => r.bind (fun x => x.2.phases) := by
      apply List.map_congr_left
      intro r _
      exact phases_toIP r
    rw [this]
    rfl

theorem sumOf_bound (cfg : Config) (hcfg : cfg.Physical) (unit : RUnit) (rs : List (Option (Profile × Period)))
    (hr : ∀ r ∈ rs, Good r) : 0 ≤ sumOf cfg unit rs ∧ sumOf cfg unit rs ≤ rs.length * 1000000000000 := by
  have hd : 0 ≤ configuredDefault cfg unit ∧ configuredDefault cfg unit ≤ 1000000000000 := by
    cases unit
    · exact hcfg.currentLimit
    · exact hcfg.powerLimit
  induction rs with
  | nil => simp [sumOf]
  | cons r rs ih =>
    have ih' := ih (fun x hx => hr x (List.mem_cons_of_mem _ hx))
    have hg := hr r (by simp)
    have e : sumOf cfg unit (r :: rs) = share cfg unit r + sumOf cfg unit rs := by
      unfold sumOf; simp only [List.map_cons, List.sum_cons]
    have hb : 0 ≤ share cfg unit r ∧ share cfg unit r ≤ 1000000000000 := by
      rcases r with _ | ⟨p, per⟩
      · exact hd
      · simp only [share]
        split
        · exact hg.limit p per rfl
        · exact hd
    rw [e, List.length_cons]
    push_cast
    constructor
    · linarith [hb.1, ih'.1]
    · linarith [hb.2, ih'.2]

theorem highestPhases_mem {l : List (Option Int)} {n : Int} (h : highestPhases l = some n) : some n ∈ l := by
  unfold highestPhases at h
  have := List.max?_mem h
  simpa [List.mem_filterMap] using this

end Verif.SC16
