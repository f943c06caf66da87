import Verif.SmartCharging.V2Extra

/-!
# Properties C19, C17 (2.x), C51, C52, C53

The theorems use the specification in `V2Spec`. `sort` is any function that sorts by stack level. The window is `[now, stop)`,
instants are `t`, offsets are `t - now`.
-/

namespace Verif.SC2
open Verif.SC
open Verif.SC16 (RUnit Limit lowestPhases highestPhases IsMin noLimit fltMax fltMax_big noLimit_neg)

/-! ## Concrete data for the non-vacuity examples -/

/-- Insertion sort by stack level. -/
def insertByStack (e : Entry IP) : List (Entry IP) → List (Entry IP)
  | [] => [e]
  | x :: rest => if x.stack ≤ e.stack then e :: x :: rest else x :: insertByStack e rest

def sortByStack : Sorter
  | [] => []
  | e :: rest => insertByStack e (sortByStack rest)

theorem insertByStack_perm (e : Entry IP) (l : List (Entry IP)) : (insertByStack e l).Perm (e :: l) := by
  induction l with
  | nil => exact List.Perm.refl _
  | cons x l ih =>
    unfold insertByStack
    split
    · exact List.Perm.refl _
    · exact (ih.cons x).trans (List.Perm.swap e x l)

theorem sortByStack_sorts : SortsByStack sortByStack := by
  constructor
  · intro l
    induction l with
    | nil => exact List.Perm.refl _
    | cons e l ih => exact (insertByStack_perm e _).trans (ih.cons e)
  · intro l
    induction l with
    | nil => exact List.Pairwise.nil
    | cons e l ih =>
      show (insertByStack e (sortByStack l)).Pairwise _
      generalize sortByStack l = m at ih
      induction m with
      | nil => simp [insertByStack]
      | cons x m ihm =>
        unfold insertByStack
        obtain ⟨hx, hm⟩ := List.pairwise_cons.1 ih
        split
        · rename_i hle
          refine List.pairwise_cons.2 ⟨?_, ih⟩
          intro y hy
          rcases List.mem_cons.1 hy with rfl | hy
          · exact hle
          · have := hx y hy; omega
        · rename_i hle
          refine List.pairwise_cons.2 ⟨?_, ihm hm⟩
          intro y hy
          rcases List.mem_cons.1 ((insertByStack_perm e m).mem_iff.1 hy) with rfl | hy
          · omega
          · exact hx y hy

/-- A daily TxDefaultProfile: 32 A, after one hour 16 A. -/
def exDaily : Profile :=
  { id := 1, stack := 2, purpose := .txDefault, kind := .recurring, recur := some .daily, startSchedule := some 1000,
    duration := some 7200, unit := .A, periods := [{ start := 0, limit := some 32, phases := some 3 },
      { start := 3600, limit := some 16, phases := some 3 }] }

/-- A ChargingStationMaxProfile: 5000 W from 5000. -/
def exMax : Profile :=
  { id := 2, stack := 0, purpose := .stationMax, kind := .absolute, startSchedule := some 5000, unit := .W,
    periods := [{ start := 0, limit := some 5000 }] }

/-- An external constraint with charging and discharging limits: 10 A and -8 A. -/
def exExternal : Profile :=
  { id := 4, stack := 0, purpose := .external, kind := .absolute, startSchedule := some 3000, duration := some 1000, unit := .A,
    periods := [{ start := 0, limit := some 10, discharge := some (-8), chargingOnly := false }] }

def exStation : Station := ⟨[exMax], [⟨some 900, [exDaily, exExternal]⟩, ⟨none, []⟩]⟩

/-- A profile for which both hypotheses are computable. -/
def Profile.check (p : Profile) : Bool :=
  (match p.periods with | [] => false | a :: _ => decide (a.start = 0)) &&
  decide (p.periods.Pairwise (fun a b => a.start < b.start)) &&
  p.periods.all (fun x => decide (x.start ≤ intMax) &&
    x.limit.all (fun l => decide (0 ≤ l) && decide (l ≤ 1000000000000)) &&
    x.discharge.all (fun l => decide (-1000000000000 ≤ l) && decide (l ≤ 0)) &&
    x.setpoint.all (fun l => decide (-1000000000000 ≤ l) && decide (l ≤ 1000000000000)) &&
    x.phases.all (fun n => decide (1 ≤ n) && decide (n ≤ 3)) &&
    x.limitL2.isNone && x.limitL3.isNone && x.dischargeL2.isNone && x.dischargeL3.isNone && x.setpointL2.isNone && x.setpointL3.isNone)

theorem Profile.check_ok {p : Profile} (h : p.check = true) : p.Ordered ∧ p.Physical := by
  unfold Profile.check at h
  simp only [Bool.and_eq_true, decide_eq_true_eq, List.all_eq_true, Option.isNone_iff_eq_none, Option.all_eq_true] at h
  obtain ⟨⟨h1, h2⟩, h3⟩ := h
  refine ⟨⟨?_, h2, fun x hx => (h3 x hx).1.1.1.1.1.1.1.1.1.1⟩, ⟨?_, ?_, ?_, ?_, ?_⟩⟩
  · cases hp : p.periods with
    | nil => rw [hp] at h1; cases h1
    | cons a rest => rw [hp] at h1; exact ⟨a, rest, rfl, by simpa using h1⟩
  · intro x hx l hl; exact (h3 x hx).1.1.1.1.1.1.1.1.1.2 l hl
  · intro x hx l hl; exact (h3 x hx).1.1.1.1.1.1.1.1.2 l hl
  · intro x hx l hl; exact (h3 x hx).1.1.1.1.1.1.1.2 l hl
  · intro x hx n hn; exact (h3 x hx).1.1.1.1.1.1.2 n hn
  · intro x hx
    obtain ⟨⟨⟨⟨⟨⟨_, a⟩, b⟩, c⟩, d⟩, e⟩, f⟩ := h3 x hx
    exact ⟨a, b, c, d, e, f⟩

theorem Station.sane_of_check {s : Station} (h : (s.profiles.all Profile.check && s.evses.all (fun e => e.profiles.all Profile.check)) = true) :
    s.Sane := by
  simp only [Bool.and_eq_true, List.all_eq_true] at h
  exact ⟨fun p hp => Profile.check_ok (h.1 p hp), fun e he p hp => Profile.check_ok (h.2 e he p hp)⟩

theorem exStation_sane : exStation.Sane := Station.sane_of_check (by decide +kernel)

theorem exConfig_physical : ({} : Config).Physical := by
  refine ⟨?_, ?_, ?_, ?_⟩ <;> decide +kernel

/-! ## C19 -/

theorem composite_evse (sort : Sorter) (cfg : Config) (s : Station) (evse : Nat) (he : evse ≠ 0) (e : Evse)
    (hg : s.evses[evse-1]? = some e) (unit : RUnit) (now stop : Int) (simulate : Bool) :
    composite sort cfg s evse unit now stop simulate =
      convertAll unit (configuredDefault cfg unit) cfg.phases cfg.voltage (evseLimits sort cfg s e now stop simulate) := by
  unfold composite
  rw [if_neg he, hg]
  cases unit <;> rfl

/-- What is merged at `t` for one EVSE. -/
theorem evse_merged (sort : Sorter) (hsort : SortsByStack sort) (cfg : Config) (s : Station) (hs : s.Sane) (e : Evse)
    (hem : e ∈ s.evses) (now stop : Int) (simulate : Bool) (hw : stop - now ≤ intMax) (t : Int) (h1 : now ≤ t) (h2 : t < stop) :
    ∃ (ext tx max : Option (Profile × Period)) (rs : List (Option (Profile × Period))),
      Decides (Counts s e .external) e.session now t ext ∧ TxDecides s e simulate now t tx ∧
      Decides (StationMax s) e.session now t max ∧ (∀ r ∈ rs, Good r) ∧
      rs.flatMap Option.toList = ext.toList ++ tx.toList ++ max.toList ∧
      valueAt (evseLimits sort cfg s e now stop simulate) (t - now) = some (lowestComb cfg.v21 (rs.map toIP)) := by
  obtain ⟨ext, tx, dext, dtx, gext, gtx, htx⟩ := evse_at sort hsort s hs e hem now stop simulate hw t h1 h2
  obtain ⟨mx, dmx, gmx, hmx⟩ := station_at sort hsort s hs e.session now stop hw t h1 h2
  have hat := combine_at gapIP (lowestComb cfg.v21) (evseIntermediates sort e.profiles s.profiles now stop e.session simulate ++
    [generate sort (allEntries now stop e.session s.profiles .stationMax) now stop gapIP])
    (by simp) (stop - now) hw (by
      intro p hp
      rcases List.mem_append.1 hp with hp | hp
      · exact evseIntermediates_wf sort _ _ _ _ (by omega) hw p hp
      · rw [List.mem_singleton.1 hp]; exact generate_wf _ _ _ _ _ (by omega) hw) (t - now) (by omega)
  rw [List.filterMap_append] at hat
  simp only [List.filterMap_cons, List.filterMap_nil, hmx, htx] at hat
  by_cases ha : e.session ≠ none ∨ simulate = true
  · rw [if_pos ha] at hat
    refine ⟨ext, tx, mx, [ext, tx, mx], dext, dtx, dmx, ?_, by simp, hat⟩
    intro r hr
    simp only [List.mem_cons, List.not_mem_nil, or_false] at hr
    rcases hr with rfl | rfl | rfl <;> assumption
  · rw [if_neg ha] at hat
    have h0 : tx = none := by unfold TxDecides at dtx; rw [if_neg ha] at dtx; exact dtx
    refine ⟨ext, tx, mx, [ext, mx], dext, dtx, dmx, ?_, by simp [h0], hat⟩
    intro r hr
    simp only [List.mem_cons, List.not_mem_nil, or_false] at hr
    rcases hr with rfl | rfl <;> assumption

theorem applies_rs (cfg : Config) (hcfg : cfg.Physical) (v21 : Bool) (unit : RUnit) (rs : List (Option (Profile × Period)))
    (hr : ∀ r ∈ rs, Good r) :
    Applies cfg unit ((rs.flatMap Option.toList).map constraintOf)
      (convert unit (configuredDefault cfg unit) cfg.phases cfg.voltage (lowestComb v21 (rs.map toIP))) := by
  have h := applies_of cfg hcfg v21 unit (rs.map fun r => (toIP r, r.toList.map constraintOf)) (by
    intro p hp
    obtain ⟨r, hrm, rfl⟩ := List.mem_map.1 hp
    exact stands_toIP (hr r hrm)) (notThree (Or.inr (by
      intro x hx
      simp only [List.mem_map, exists_exists_and_eq_and] at hx
      obtain ⟨r, hrm, rfl⟩ := hx
      exact toIP_scalar (hr r hrm))))
  have e1 : (rs.map fun r => (toIP r, r.toList.map constraintOf)).map Prod.fst = rs.map toIP := by
    rw [List.map_map]; rfl
  have e2 : (rs.map fun r => (toIP r, r.toList.map constraintOf)).flatMap Prod.snd = (rs.flatMap Option.toList).map constraintOf := by
    clear h hr; clear e1
    induction rs with
    | nil => rfl
    | cons r rs ih => simp only [List.map_cons, List.flatMap_cons, List.map_append, ih]
  rwa [e1, e2] at h

/-- **C19 (EVSE).** For every instant of the window the composite limit of an EVSE is the lowest of the external constraint, of the
transaction limit (TxProfile in force, else TxDefaultProfile; only with a running or simulated transaction) and of the station limit
in force, converted to the requested unit; it is the configured default if none of them has a limit. The discharge limit is the
negative one closest to zero. Holds for both protocol versions when the profiles have no values for single phases. -/
theorem C19_evse (sort : Sorter) (hsort : SortsByStack sort) (cfg : Config) (hcfg : cfg.Physical) (s : Station) (hs : s.Sane)
    (evse : Nat) (he : evse ≠ 0) (e : Evse) (hg : s.evses[evse-1]? = some e) (unit : RUnit) (now stop : Int) (simulate : Bool)
    (hw : stop - now ≤ intMax) (t : Int) (h1 : now ≤ t) (h2 : t < stop) :
    ∃ ext tx max o, Decides (Counts s e .external) e.session now t ext ∧ TxDecides s e simulate now t tx ∧
      Decides (StationMax s) e.session now t max ∧
      valueAt (composite sort cfg s evse unit now stop simulate) (t - now) = some o ∧
      Applies cfg unit ((ext.toList ++ tx.toList ++ max.toList).map constraintOf) o ∧
      AppliesDischarge (fun d => decide (d < 0)) cfg unit ((ext.toList ++ tx.toList ++ max.toList).map constraintOf) o := by
  obtain ⟨ext, tx, mx, rs, dext, dtx, dmx, gr, hrs, hv⟩ :=
    evse_merged sort hsort cfg s hs e (List.mem_of_getElem? hg) now stop simulate hw t h1 h2
  have wf := evseLimits_wf sort cfg s e simulate (show now < stop by omega) hw
  obtain ⟨o, ho, hsame⟩ := convertAll_at unit (configuredDefault cfg unit) cfg.phases cfg.voltage _ _ wf _ _ hv
  refine ⟨ext, tx, mx, o, dext, dtx, dmx, ?_, ?_, ?_⟩
  · rw [composite_evse sort cfg s evse he e hg]; exact ho
  · rw [← hrs]; exact Applies.same (applies_rs cfg hcfg cfg.v21 unit rs gr) hsame
  · have hd := discharge_applies cfg.v21 unit (configuredDefault cfg unit) cfg.phases cfg.voltage rs gr
      (by have := hcfg.voltage; linarith) (by have := hcfg.phases; omega)
    rw [← hrs]
    unfold AppliesDischarge
    rw [hsame.2.2.2, hsame.2.1]
    exact hd

/-- **C19 (never above).** In words: the composite limit of an EVSE exceeds none of the limits in force. -/
theorem C19_never_above (cfg : Config) (unit : RUnit) (cs : List Constraint) (o : Out) (ha : Applies cfg unit cs o) :
    ∀ c ∈ cs, ∀ l, c.limit = some l → o.limit ≤ inUnit c.unit unit cfg.voltage (o.phases.getD cfg.phases) l := by
  intro c hc l hl
  obtain ⟨a1, _, a3⟩ := ha
  rw [a1]
  have hm : inUnit c.unit unit cfg.voltage ((lowestPhases (cs.map Constraint.phases)).getD cfg.phases) l ∈
      cs.filterMap fun c => c.limit.map (inUnit c.unit unit cfg.voltage ((lowestPhases (cs.map Constraint.phases)).getD cfg.phases)) :=
    List.mem_filterMap.2 ⟨c, hc, by rw [hl]; rfl⟩
  exact (a3 (List.ne_nil_of_mem hm)).2 _ hm

/-- Default 32 A; 10 A while the external constraint applies; 5000 W with three phases after the station limit has started. -/
example : exStation.Sane ∧ ({} : Config).Physical ∧
    (composite sortByStack {} exStation 1 .A 0 6000 false).map (fun s => (s.start, s.val.limit, s.val.discharge, s.val.phases)) =
      [(0, 48, none, none), (1000, 32, none, some 3), (3000, 10, some (-8), some 3), (4000, 32, none, some 3), (4600, 16, none, some 3),
       (5000, 5000 / 690, none, some 3)] :=
  ⟨exStation_sane, exConfig_physical, by decide +kernel⟩

/-! ### The whole station -/

/-- The intermediate period of the sum, for OCPP 2.0.1. -/
theorem sum_value (cfg : Config) (xs : List IP) (hx : xs ≠ []) :
    let y := sumComb false cfg.currentLimit cfg.powerLimit xs
    y.cur.l1 = (xs.map fun x => if (0 : Rat) ≤ x.cur.l1 then x.cur.l1 else cfg.currentLimit).sum ∧
    y.pow.l1 = (xs.map fun x => if (0 : Rat) ≤ x.pow.l1 then x.pow.l1 else cfg.powerLimit).sum ∧
    y.phases = highestPhases (xs.map IP.phases) ∧ LimScalar y := by
  obtain ⟨a, b, c⟩ := sum_fold (highestPhasesOf xs) cfg.currentLimit cfg.powerLimit xs
    ⟨.all 0, .all 0, .all 0, .all 0, .all noSetpoint, .all noSetpoint, highestPhasesOf xs⟩
  refine ⟨?_, ?_, ?_, ?_⟩
  · show (xs.foldl (sumStep false (highestPhasesOf xs) cfg.currentLimit cfg.powerLimit) _).cur.l1 = _
    rw [a]; simp [PL.all]
  · show (xs.foldl (sumStep false (highestPhasesOf xs) cfg.currentLimit cfg.powerLimit) _).pow.l1 = _
    rw [b]; simp [PL.all]
  · show (xs.foldl (sumStep false (highestPhasesOf xs) cfg.currentLimit cfg.powerLimit) _).phases = _
    rw [c, ← highestPhasesOf_eq]
  · exact sum_fold_l2 _ _ _ xs _ (Or.inl hx)

theorem sum_bound {α : Type} (l : List α) (f : α → Rat) (B : Rat) (hB : ∀ x ∈ l, 0 ≤ f x ∧ f x ≤ B) :
    0 ≤ (l.map f).sum ∧ (l.map f).sum ≤ (l.length : Rat) * B := by
  induction l with
  | nil => simp
  | cons x l ih =>
    obtain ⟨i1, i2⟩ := ih (fun y hy => hB y (List.mem_cons_of_mem _ hy))
    obtain ⟨b1, b2⟩ := hB x (by simp)
    simp only [List.map_cons, List.sum_cons, List.length_cons]
    push_cast
    constructor <;> nlinarith

/-- A share is non-negative and bounded. -/
theorem share_bound (cfg : Config) (hcfg : cfg.Physical) (unit : RUnit) (rs : List (Option (Profile × Period))) (hr : ∀ r ∈ rs, Good r)
    (x : Rat) (hx : share cfg unit ((rs.flatMap Option.toList).map constraintOf) x) : 0 ≤ x ∧ x ≤ 1000000000000 := by
  obtain ⟨h1, h2⟩ := hx
  by_cases hnil : (((rs.flatMap Option.toList).map constraintOf).filter (fun c => decide (c.unit = unit))).filterMap Constraint.limit = []
  · rw [h1 hnil]
    cases unit
    · exact hcfg.currentLimit
    · exact hcfg.powerLimit
  · have hm := (h2 hnil).1
    simp only [List.mem_filterMap, List.mem_filter, List.mem_map, List.mem_flatMap] at hm
    obtain ⟨c, ⟨⟨y, ⟨r, hrm, hy⟩, rfl⟩, _⟩, hl⟩ := hm
    have : r = some y := by simpa using hy
    subst this
    exact limitValue_bound (hr _ hrm) hl

/-- **C19 (whole station, OCPP 2.0.1).** The composite limit of the station is the lowest of: the sum over its EVSEs of their limits
in A (the lowest of the external and transaction limits given in A, else the configured default), the same sum in W, and the
ChargingStationMaxProfile limit. The number of phases of the sums is the highest of the EVSEs. (Relative ChargingStationMaxProfiles
count from the transaction of the last EVSE.) For OCPP 2.1 see `C53_station_violated`. -/
theorem C19_station (sort : Sorter) (hsort : SortsByStack sort) (cfg : Config) (hcfg : cfg.Physical) (hv21 : cfg.v21 = false)
    (s : Station) (hs : s.Sane) (hne : s.evses ≠ []) (hlen : s.evses.length ≤ 1000000) (unit : RUnit) (now stop : Int)
    (simulate : Bool) (hw : stop - now ≤ intMax) (t : Int) (h1 : now ≤ t) (h2 : t < stop) :
    ∃ (ext tx : Evse → Option (Profile × Period)) (max : Option (Profile × Period)) (a w : Evse → Rat) (o : Out),
      (∀ e ∈ s.evses, Decides (Counts s e .external) e.session now t (ext e) ∧ TxDecides s e simulate now t (tx e) ∧
        share cfg .A (((ext e).toList ++ (tx e).toList).map constraintOf) (a e) ∧
        share cfg .W (((ext e).toList ++ (tx e).toList).map constraintOf) (w e)) ∧
      Decides (StationMax s) (s.evses.getLast?.bind Evse.session) now t max ∧
      valueAt (composite sort cfg s 0 unit now stop simulate) (t - now) = some o ∧
      let ph := highestPhases (s.evses.map fun e =>
        lowestPhases ((((ext e).toList ++ (tx e).toList).map constraintOf).map Constraint.phases))
      Applies cfg unit ([⟨.A, some (s.evses.map a).sum, none, none, ph⟩, ⟨.W, some (s.evses.map w).sum, none, none, ph⟩] ++
        max.toList.map constraintOf) o := by
  have hex : ∀ e, e ∈ s.evses → ∃ q : (Option (Profile × Period)) × (Option (Profile × Period)) × List (Option (Profile × Period)),
      Decides (Counts s e .external) e.session now t q.1 ∧ TxDecides s e simulate now t q.2.1 ∧ (∀ r ∈ q.2.2, Good r) ∧
      q.2.2.flatMap Option.toList = q.1.toList ++ q.2.1.toList ∧
      valueAt (mergeLowest cfg.v21 (evseIntermediates sort e.profiles s.profiles now stop e.session simulate)) (t - now) =
        some (lowestComb false (q.2.2.map toIP)) := by
    intro e hem
    obtain ⟨ext, tx, dext, dtx, gext, gtx, htx⟩ := evse_at sort hsort s hs e hem now stop simulate hw t h1 h2
    have hat := combine_at gapIP (lowestComb cfg.v21) (evseIntermediates sort e.profiles s.profiles now stop e.session simulate)
      (by unfold evseIntermediates; simp only; split <;> simp) (stop - now) hw
      (evseIntermediates_wf sort _ _ _ _ (by omega) hw) (t - now) (by omega)
    rw [htx, hv21] at hat
    by_cases ha : e.session ≠ none ∨ simulate = true
    · rw [if_pos ha] at hat
      refine ⟨(ext, tx, [ext, tx]), dext, dtx, ?_, by simp, by rw [hv21]; exact hat⟩
      intro r hr
      simp only [List.mem_cons, List.not_mem_nil, or_false] at hr
      rcases hr with rfl | rfl <;> assumption
    · rw [if_neg ha] at hat
      have h0 : tx = none := by unfold TxDecides at dtx; rw [if_neg ha] at dtx; exact dtx
      refine ⟨(ext, tx, [ext]), dext, dtx, ?_, by simp [h0], by rw [hv21]; exact hat⟩
      intro r hr
      rw [List.mem_singleton.1 hr]; exact gext
  obtain ⟨mx, dmx, gmx, hmx⟩ := station_at sort hsort s hs (s.evses.getLast?.bind Evse.session) now stop hw t h1 h2
  classical
  let q : Evse → (Option (Profile × Period)) × (Option (Profile × Period)) × List (Option (Profile × Period)) :=
    fun e => if h : e ∈ s.evses then (hex e h).choose else (none, none, [])
  have hq : ∀ e ∈ s.evses, Decides (Counts s e .external) e.session now t (q e).1 ∧ TxDecides s e simulate now t (q e).2.1 ∧
      (∀ r ∈ (q e).2.2, Good r) ∧ (q e).2.2.flatMap Option.toList = (q e).1.toList ++ (q e).2.1.toList ∧
      valueAt (mergeLowest cfg.v21 (evseIntermediates sort e.profiles s.profiles now stop e.session simulate)) (t - now) =
        some (lowestComb false ((q e).2.2.map toIP)) := by
    intro e he
    have : q e = (hex e he).choose := by simp only [q, dif_pos he]
    rw [this]
    exact (hex e he).choose_spec
  let z : Evse → IP := fun e => lowestComb false ((q e).2.2.map toIP)
  let a : Evse → Rat := fun e => if 0 ≤ (z e).cur.l1 then (z e).cur.l1 else cfg.currentLimit
  let w : Evse → Rat := fun e => if 0 ≤ (z e).pow.l1 then (z e).pow.l1 else cfg.powerLimit
  let ph := highestPhases (s.evses.map fun e =>
    lowestPhases ((((q e).1.toList ++ (q e).2.1.toList).map constraintOf).map Constraint.phases))
  have hsh : ∀ e ∈ s.evses, share cfg .A (((q e).1.toList ++ (q e).2.1.toList).map constraintOf) (a e) ∧
      share cfg .W (((q e).1.toList ++ (q e).2.1.toList).map constraintOf) (w e) ∧
      (z e).phases = lowestPhases ((((q e).1.toList ++ (q e).2.1.toList).map constraintOf).map Constraint.phases) ∧
      (0 ≤ a e ∧ a e ≤ 1000000000000) ∧ (0 ≤ w e ∧ w e ≤ 1000000000000) := by
    intro e he
    obtain ⟨_, _, g, hf, _⟩ := hq e he
    obtain ⟨s1, s2, s3⟩ := share_of cfg (q e).2.2 g
    have b1 := share_bound cfg hcfg .A _ g _ s1
    have b2 := share_bound cfg hcfg .W _ g _ s2
    rw [hf] at s1 s2 s3
    exact ⟨s1, s2, s3, b1, b2⟩
  obtain ⟨y1, y2, y3, y4⟩ := sum_value cfg (s.evses.map z) (by simpa using hne)
  generalize hy : sumComb false cfg.currentLimit cfg.powerLimit (s.evses.map z) = y at y1 y2 y3 y4
  have y1' : y.cur.l1 = (s.evses.map a).sum := by rw [y1, List.map_map]; rfl
  have y2' : y.pow.l1 = (s.evses.map w).sum := by rw [y2, List.map_map]; rfl
  have y3' : y.phases = ph := by
    rw [y3, List.map_map]
    show highestPhases _ = highestPhases _
    congr 1
    apply List.map_congr_left
    intro e he
    exact (hsh e he).2.2.1
  have ba := sum_bound s.evses a 1000000000000 (fun e he => (hsh e he).2.2.2.1)
  have bw := sum_bound s.evses w 1000000000000 (fun e he => (hsh e he).2.2.2.2)
  have hl : ((s.evses.length : Nat) : Rat) ≤ 1000000 := by exact_mod_cast hlen
  have fm := fltMax_big
  have hsum : valueAt (mergeSum cfg.v21 cfg.currentLimit cfg.powerLimit (s.evses.map fun e =>
      mergeLowest cfg.v21 (evseIntermediates sort e.profiles s.profiles now stop e.session simulate))) (t - now) = some y := by
    unfold mergeSum
    rw [combine_at gapIP _ _ (by simpa using hne) (stop - now) hw (by
      intro p hp
      obtain ⟨e, _, rfl⟩ := List.mem_map.1 hp
      exact evseSchedule_wf sort _ _ _ _ _ (by omega) hw) (t - now) (by omega)]
    rw [List.filterMap_map, filterMap_congr' (g := fun e => some (z e))]
    · rw [List.filterMap_eq_map', hv21, hy]
    · intro e he; exact (hq e he).2.2.2.2
  have hval : valueAt (stationLimits sort cfg s now stop simulate) (t - now) = some (lowestComb cfg.v21 [y, toIP mx]) := by
    unfold stationLimits
    unfold mergeLowest
    have hat := combine_at gapIP (lowestComb cfg.v21) [mergeSum cfg.v21 cfg.currentLimit cfg.powerLimit (s.evses.map fun e =>
        mergeLowest cfg.v21 (evseIntermediates sort e.profiles s.profiles now stop e.session simulate)),
        generate sort (allEntries now stop (s.evses.getLast?.bind Evse.session) s.profiles .stationMax) now stop gapIP]
      (by simp) (stop - now) hw (by
        intro p hp
        rcases List.mem_cons.1 hp with rfl | hp
        · apply combine_wf _ _ _ _ (by omega) hw
          intro p hp
          obtain ⟨e, _, rfl⟩ := List.mem_map.1 hp
          exact evseSchedule_wf sort _ _ _ _ _ (by omega) hw
        · rw [List.mem_singleton.1 hp]; exact generate_wf _ _ _ _ _ (by omega) hw) (t - now) (by omega)
    simp only [List.filterMap_cons, List.filterMap_nil, hsum, hmx] at hat
    exact hat
  have wf := stationLimits_wf sort cfg s simulate (show now < stop by omega) hw
  obtain ⟨o, ho, hsame⟩ := convertAll_at unit (configuredDefault cfg unit) cfg.phases cfg.voltage _ _ wf _ _ hval
  refine ⟨fun e => (q e).1, fun e => (q e).2.1, mx, a, w, o, ?_, dmx, ?_, ?_⟩
  · intro e he
    exact ⟨(hq e he).1, (hq e he).2.1, (hsh e he).1, (hsh e he).2.1⟩
  · have : composite sort cfg s 0 unit now stop simulate = convertAll unit (configuredDefault cfg unit) cfg.phases cfg.voltage
        (stationLimits sort cfg s now stop simulate) := by
      unfold composite; cases unit <;> rfl
    rw [this]; exact ho
  · show Applies cfg unit ([⟨.A, some (s.evses.map a).sum, none, none, ph⟩, ⟨.W, some (s.evses.map w).sum, none, none, ph⟩] ++
        mx.toList.map constraintOf) o
    have hst : Stands y [⟨.A, some (s.evses.map a).sum, none, none, ph⟩, ⟨.W, some (s.evses.map w).sum, none, none, ph⟩] := by
      refine ⟨⟨Or.inr ⟨?_, ?_⟩, Or.inr ⟨?_, ?_⟩⟩, ?_, ?_, y4, ?_, ?_⟩
      · show 0 ≤ y.cur.l1; rw [y1']; exact ba.1
      · show y.cur.l1 < fltMax; rw [y1']; nlinarith [ba.2]
      · show 0 ≤ y.pow.l1; rw [y2']; exact bw.1
      · show y.pow.l1 < fltMax; rw [y2']; nlinarith [bw.2]
      · intro u l
        constructor
        · rintro ⟨c, hc, hu, hl'⟩
          simp only [List.mem_cons, List.not_mem_nil, or_false] at hc
          rcases hc with rfl | rfl
          · simp only [Option.some.injEq] at hl'
            refine ⟨⟨u, l, y.phases⟩, SC16.limits_mem.2 ⟨rfl, hl' ▸ ba.1, Or.inl ⟨hu.symm, ?_⟩⟩, rfl, rfl⟩
            rw [← hl']; exact y1'.symm
          · simp only [Option.some.injEq] at hl'
            refine ⟨⟨u, l, y.phases⟩, SC16.limits_mem.2 ⟨rfl, hl' ▸ bw.1, Or.inr ⟨hu.symm, ?_⟩⟩, rfl, rfl⟩
            rw [← hl']; exact y2'.symm
        · rintro ⟨m, hm, rfl, rfl⟩
          obtain ⟨_, _, h3⟩ := SC16.limits_mem.1 hm
          rcases h3 with ⟨hu, hval'⟩ | ⟨hu, hval'⟩
          · refine ⟨⟨.A, some (s.evses.map a).sum, none, none, ph⟩, by simp, hu.symm, ?_⟩
            rw [hval', ← y1']; rfl
          · refine ⟨⟨.W, some (s.evses.map w).sum, none, none, ph⟩, by simp, hu.symm, ?_⟩
            rw [hval', ← y2']; rfl
      · intro n
        simp [y3', eq_comm]
      · intro c hc l hl'
        simp only [List.mem_cons, List.not_mem_nil, or_false] at hc
        rcases hc with rfl | rfl <;> simp only [Option.some.injEq] at hl' <;> subst hl'
        · exact ⟨ba.1, by nlinarith [ba.2]⟩
        · exact ⟨bw.1, by nlinarith [bw.2]⟩
      · intro n hn
        rw [y3'] at hn
        have hmem := SC16.highestPhases_mem hn
        obtain ⟨e, he, hen⟩ := List.mem_map.1 hmem
        have := SC16.lowestPhases_mem hen
        simp only [List.map_map, List.mem_map] at this
        obtain ⟨y', hy', hyn⟩ := this
        obtain ⟨_, _, g, hf, _⟩ := hq e he
        rw [← hf] at hy'
        obtain ⟨r, hrm, hry⟩ := List.mem_flatMap.1 hy'
        have : r = some y' := by simpa using hry
        subst this
        exact (g _ hrm).phases y'.1 y'.2 n rfl hyn
    have := applies_of cfg hcfg cfg.v21 unit [(y, [⟨.A, some (s.evses.map a).sum, none, none, ph⟩,
      ⟨.W, some (s.evses.map w).sum, none, none, ph⟩]), (toIP mx, mx.toList.map constraintOf)] (by
        intro p hp
        simp only [List.mem_cons, List.not_mem_nil, or_false] at hp
        rcases hp with rfl | rfl
        · exact hst
        · exact stands_toIP gmx) (by simp [hv21])
    simp only [List.flatMap_cons, List.flatMap_nil, List.append_nil, List.map_cons, List.map_nil] at this
    exact Applies.same this hsame

/-- Two EVSEs, one of them with a transaction: 32 A plus the default of 48 A; 10 A plus 48 A with the external constraint. -/
example : exStation.Sane ∧ exStation.evses ≠ [] ∧ ({} : Config).v21 = false ∧
    (composite sortByStack {} exStation 0 .A 0 6000 false).map (fun s => (s.start, s.val.limit, s.val.phases)) =
      [(0, 96, none), (1000, 80, some 3), (3000, 58, some 3), (4000, 80, some 3), (4600, 64, some 3), (5000, 5000 / 690, some 3)] :=
  ⟨exStation_sane, by simp [exStation], rfl, by decide +kernel⟩

def exThree : Station :=
  ⟨[{ exMax with startSchedule := some 0, periods := [{ start := 0, limit := some 9000, phases := some 3 }] }], [⟨none, []⟩, ⟨none, []⟩]⟩

/-- **C53 (violated for the station).** With OCPP 2.1 the composite schedule of the station has values per phase although no profile has any:
9000 W become 3000 W per phase. The conclusion of `C19_station` does not hold: the limit is not one of the limits. -/
theorem C53_station_violated : ∃ (cfg : Config) (s : Station) (o : Out), cfg.Physical ∧ s.Sane ∧ cfg.v21 = true ∧
    s.evses ≠ [] ∧ valueAt (composite sortByStack cfg s 0 .W 0 1000 false) 0 = some o ∧
    o.limit = 3000 ∧ o.limitL2 = some 3000 ∧ o.limitL3 = some 3000 ∧
    (∀ e ∈ s.evses, e.profiles = []) ∧ (∀ p ∈ s.profiles, ∀ x ∈ p.periods, x.limit = some 9000 ∧ x.limitL2 = none) :=
  ⟨{ v21 := true }, exThree, ⟨3000, some 3000, some 3000, none, none, none, none, none, none, some 3⟩,
    ⟨by decide +kernel, by decide +kernel, by decide +kernel, by decide +kernel⟩, Station.sane_of_check (by decide +kernel), rfl,
    by simp [exThree], by decide +kernel, rfl, rfl, rfl, by decide +kernel, by decide +kernel⟩

/-! ## C17 -/

/-- **C17 (2.x).** The period list of every composite schedule starts at 0, its offsets strictly increase and are inside the window,
and consecutive periods differ in limit, number of phases, setpoint or discharge limit. No assumption about the profiles. -/
theorem C17_v2_well_formed (sort : Sorter) (cfg : Config) (s : Station) (evse : Nat) (hev : evse ≤ s.evses.length) (unit : RUnit)
    (now stop : Int) (simulate : Bool) (h0 : now < stop) (hw : stop - now ≤ intMax) :
    WellFormed (composite sort cfg s evse unit now stop simulate) (stop - now) ∧
    (composite sort cfg s evse unit now stop simulate).IsChain (fun a b => ¬ (b.val.limit = a.val.limit ∧
      b.val.phases = a.val.phases ∧ b.val.setpoint = a.val.setpoint ∧ b.val.discharge = a.val.discharge)) := by
  unfold composite
  simp only
  refine convertAll_wf _ _ _ _ _ _ ?_
  split
  · exact stationLimits_wf sort cfg s simulate h0 hw
  · split
    · exact evseLimits_wf sort cfg s _ simulate h0 hw
    · rename_i hn
      rw [List.getElem?_eq_none_iff] at hn
      omega

example : (composite sortByStack {} exStation 2 .W 0 6000 true).map (fun s => (s.start, s.val.limit)) =
    [(0, 33120), (5000, 5000)] ∧ 2 ≤ exStation.evses.length := by decide +kernel

/-! ## C51 -/

/-- **C51 (partial).** If the profiles that decide at an instant all use the same unit and at least one of them has a limit, the
setpoint of the composite schedule is between its discharge limit and its limit. Missing: profiles in different units, and a setpoint
without any limit, where it does not hold (`C51_mixed_units_violated`, `C51_default_violated`). -/
theorem C51_same_unit_partial (sort : Sorter) (hsort : SortsByStack sort) (cfg : Config) (hcfg : cfg.Physical) (s : Station)
    (hs : s.Sane) (evse : Nat) (he : evse ≠ 0) (e : Evse) (hg : s.evses[evse-1]? = some e) (unit : RUnit) (now stop : Int)
    (simulate : Bool) (hw : stop - now ≤ intMax) (t : Int) (h1 : now ≤ t) (h2 : t < stop) :
    ∃ ext tx max o, Decides (Counts s e .external) e.session now t ext ∧ TxDecides s e simulate now t tx ∧
      Decides (StationMax s) e.session now t max ∧
      valueAt (composite sort cfg s evse unit now stop simulate) (t - now) = some o ∧
      ∀ u, (∀ r ∈ ext.toList ++ tx.toList ++ max.toList, r.1.unit = u) →
        (∃ r ∈ ext.toList ++ tx.toList ++ max.toList, (limitValue r.1 r.2).isSome) → SetpointInside o := by
  obtain ⟨ext, tx, mx, rs, dext, dtx, dmx, gr, hrs, hv⟩ :=
    evse_merged sort hsort cfg s hs e (List.mem_of_getElem? hg) now stop simulate hw t h1 h2
  have wf := evseLimits_wf sort cfg s e simulate (show now < stop by omega) hw
  obtain ⟨o, ho, hsame⟩ := convertAll_at unit (configuredDefault cfg unit) cfg.phases cfg.voltage _ _ wf _ _ hv
  refine ⟨ext, tx, mx, o, dext, dtx, dmx, ?_, ?_⟩
  · rw [composite_evse sort cfg s evse he e hg]; exact ho
  intro u hu hlim sp hsp
  rw [← hrs] at hu hlim
  have mem : ∀ y, y ∈ rs.flatMap Option.toList ↔ some y ∈ rs := by
    intro y
    simp only [List.mem_flatMap, Option.mem_toList]
    constructor
    · rintro ⟨r, hr, hy⟩; have : r = some y := hy; exact this ▸ hr
    · intro h; exact ⟨some y, h, rfl⟩
  have hv0 : 0 < cfg.voltage := by have := hcfg.voltage; linarith
  have hp0 : 0 < cfg.phases := by have := hcfg.phases; omega
  have happ := applies_rs cfg hcfg cfg.v21 unit rs gr
  have hdis := discharge_applies cfg.v21 unit (configuredDefault cfg unit) cfg.phases cfg.voltage rs gr hv0 hp0
  rw [hsame.2.2.1] at hsp
  obtain ⟨s0, hs0, hcase⟩ := setpoint_within cfg.v21 unit _ cfg.phases cfg.voltage rs gr u
    (fun y hy => hu y ((mem y).2 hy)) sp hsp
  simp only at hdis
  rw [hsame.1, hsame.2.2.2]
  obtain ⟨a1, _, a3⟩ := happ
  have cph : (convert unit (configuredDefault cfg unit) cfg.phases cfg.voltage (lowestComb cfg.v21 (rs.map toIP))).phases =
      (lowestComb cfg.v21 (rs.map toIP)).phases := rfl
  rw [cph] at a1
  have hn : 0 < (lowestComb cfg.v21 (rs.map toIP)).phases.getD cfg.phases := by
    rw [a1]
    cases hlp : lowestPhases (((rs.flatMap Option.toList).map constraintOf).map Constraint.phases) with
    | none => exact hp0
    | some n =>
      have := SC16.lowestPhases_mem hlp
      simp only [List.map_map, List.mem_map] at this
      obtain ⟨y, hy, hyn⟩ := this
      have := (gr _ ((mem y).1 hy)).phases y.1 y.2 n rfl hyn
      simp only [Option.getD_some]; omega
  have sign : ∀ x : Rat, (0 ≤ x → 0 ≤ inUnit u unit cfg.voltage ((lowestComb cfg.v21 (rs.map toIP)).phases.getD cfg.phases) x) ∧
      (x ≤ 0 → inUnit u unit cfg.voltage ((lowestComb cfg.v21 (rs.map toIP)).phases.getD cfg.phases) x ≤ 0) := by
    have z : inUnit u unit cfg.voltage ((lowestComb cfg.v21 (rs.map toIP)).phases.getD cfg.phases) 0 = 0 := by
      unfold inUnit Limit.inUnit; cases u <;> cases unit <;> simp
    intro x
    refine ⟨fun h => ?_, fun h => ?_⟩
    · have := inUnit_pos_mono (u := u) (unit := unit) hv0 hn h; rwa [z] at this
    · have := inUnit_pos_mono (u := u) (unit := unit) hv0 hn h; rwa [z] at this
  rcases hcase with ⟨p1, p2⟩ | ⟨p1, p2⟩
  · refine ⟨fun _ => ?_, fun hneg => absurd ((sign s0).1 p1) (by rw [← hs0]; linarith)⟩
    obtain ⟨y, hy, hyl⟩ := hlim
    obtain ⟨l, hl⟩ := Option.isSome_iff_exists.1 hyl
    have hm := (a3 (List.ne_nil_of_mem (List.mem_filterMap.2 ⟨constraintOf y, List.mem_map.2 ⟨y, hy, rfl⟩, by
      show (limitValue y.1 y.2).map _ = _
      rw [hl]; rfl⟩))).1
    obtain ⟨c, hc, hcl⟩ := List.mem_filterMap.1 hm
    obtain ⟨y', hy', rfl⟩ := List.mem_map.1 hc
    obtain ⟨l', hl', hval⟩ := Option.map_eq_some_iff.1 hcl
    rw [← hval, hs0, ← a1]
    have hu' : (constraintOf y').unit = u := hu y' hy'
    rw [hu']
    exact inUnit_pos_mono hv0 hn (p2 y' l' ((mem y').1 hy') hl')
  · refine ⟨fun hpos => ?_, fun _ d hd => ?_⟩
    · -- a negative setpoint is not converted to a positive one; it can only be zero if it was
      have h9 := (sign s0).2 p1.le
      rw [← hs0] at h9
      have : sp = 0 := le_antisymm h9 hpos
      obtain ⟨y, hy, hyl⟩ := hlim
      obtain ⟨l, hl⟩ := Option.isSome_iff_exists.1 hyl
      have hm := (a3 (List.ne_nil_of_mem (List.mem_filterMap.2 ⟨constraintOf y, List.mem_map.2 ⟨y, hy, rfl⟩, by
        show (limitValue y.1 y.2).map _ = _
        rw [hl]; rfl⟩))).1
      obtain ⟨c, hc, hcl⟩ := List.mem_filterMap.1 hm
      obtain ⟨y', hy', rfl⟩ := List.mem_map.1 hc
      obtain ⟨l', hl', hval⟩ := Option.map_eq_some_iff.1 hcl
      have hu' : (constraintOf y').unit = u := hu y' hy'
      rw [← hval, this, ← a1, hu']
      exact (sign l').1 (limitValue_bound (gr _ ((mem y').1 hy')) hl').1
    · by_cases hnil : dischargesIn unit cfg.voltage ((lowestComb cfg.v21 (rs.map toIP)).phases.getD cfg.phases)
          ((rs.flatMap Option.toList).map constraintOf) = []
      · rw [hdis.1 hnil] at hd; cases hd
      · obtain ⟨d', hd', hmax⟩ := hdis.2 hnil
        rw [hd'] at hd
        injection hd with hd
        subst hd
        obtain ⟨y, d0, hy, hyd, hneg, hval⟩ := mem_dischargesIn.1 hmax.1
        rw [← hval, hs0, hu y ((mem y).2 hy)]
        exact inUnit_pos_mono hv0 hn (p2 y d0 hy hyd hneg)

/-- A TxProfile that asks for 30 A with a limit of 32 A. -/
def exSetpoint : Profile :=
  { id := 6, stack := 1, purpose := .tx, kind := .relative, unit := .A,
    periods := [{ start := 0, limit := some 32, setpoint := some 30, chargingOnly := false }] }

/-- The setpoint follows a station limit in the same unit. -/
example : (valueAt (composite sortByStack {} ⟨[{ exMax with unit := .A, periods := [{ start := 0, limit := some 20 }] }],
    [⟨some 0, [exSetpoint]⟩]⟩ 1 .A 0 6000 false) 5500).map (fun o => (o.limit, o.setpoint)) = some (20, some 20) := by decide +kernel

/-- **C51 (violated).** A TxProfile with setpoint 30 A and a station limit of 3000 W: the composite schedule has the limit 3000/690 A
and the setpoint 30 A. -/
theorem C51_mixed_units_violated : ∃ (cfg : Config) (s : Station) (o : Out), cfg.Physical ∧ s.Sane ∧
    valueAt (composite sortByStack cfg s 1 .A 0 1000 false) 0 = some o ∧ ¬ SetpointInside o :=
  ⟨{}, ⟨[{ exMax with startSchedule := some 0, periods := [{ start := 0, limit := some 3000 }] }], [⟨some 0, [exSetpoint]⟩]⟩,
    ⟨3000 / 690, none, none, none, none, none, some 30, none, none, none⟩, exConfig_physical,
    Station.sane_of_check (by decide +kernel), by decide +kernel, fun h => absurd ((h 30 rfl).1 (by decide +kernel)) (by decide +kernel)⟩

/-- **C51 (violated).** A setpoint of 100 A without a limit: the composite schedule has the default limit 48 A and the setpoint 100 A. -/
theorem C51_default_violated : ∃ (cfg : Config) (s : Station) (o : Out), cfg.Physical ∧ s.Sane ∧
    valueAt (composite sortByStack cfg s 1 .A 0 1000 false) 0 = some o ∧ ¬ SetpointInside o :=
  ⟨{}, ⟨[], [⟨some 0, [{ exSetpoint with periods := [{ start := 0, limit := none, setpoint := some 100, chargingOnly := false }] }]⟩]⟩,
    ⟨48, none, none, none, none, none, some 100, none, none, none⟩, exConfig_physical,
    Station.sane_of_check (by decide +kernel), by decide +kernel, fun h => absurd ((h 100 rfl).1 (by decide +kernel)) (by decide +kernel)⟩

/-! ## C52 -/

/-- **C52 (partial).** The discharge limit of the composite schedule of an EVSE is the strictest of the negative discharge limits in
force. Missing: a discharge limit of 0 is ignored (`C52_zero_violated`). -/
theorem C52_discharge_partial (sort : Sorter) (hsort : SortsByStack sort) (cfg : Config) (hcfg : cfg.Physical) (s : Station)
    (hs : s.Sane) (evse : Nat) (he : evse ≠ 0) (e : Evse) (hg : s.evses[evse-1]? = some e) (unit : RUnit) (now stop : Int)
    (simulate : Bool) (hw : stop - now ≤ intMax) (t : Int) (h1 : now ≤ t) (h2 : t < stop) :
    ∃ ext tx max o, Decides (Counts s e .external) e.session now t ext ∧ TxDecides s e simulate now t tx ∧
      Decides (StationMax s) e.session now t max ∧
      valueAt (composite sort cfg s evse unit now stop simulate) (t - now) = some o ∧
      ((∀ r ∈ ext.toList ++ tx.toList ++ max.toList, r.2.discharge ≠ some 0) →
        AppliesDischarge (fun _ => true) cfg unit ((ext.toList ++ tx.toList ++ max.toList).map constraintOf) o) := by
  obtain ⟨ext, tx, mx, o, dext, dtx, dmx, hv, _, hd⟩ := C19_evse sort hsort cfg hcfg s hs evse he e hg unit now stop simulate hw t h1 h2
  refine ⟨ext, tx, mx, o, dext, dtx, dmx, hv, fun hz => ?_⟩
  unfold AppliesDischarge at *
  obtain ⟨ext', tx', mx', rs, dext', dtx', dmx', gr, hrs, _⟩ :=
    evse_merged sort hsort cfg s hs e (List.mem_of_getElem? hg) now stop simulate hw t h1 h2
  have phys : ∀ r ∈ ext.toList ++ tx.toList ++ mx.toList, ∀ d, r.2.discharge = some d → d ≤ 0 := by
    have gcount : ∀ (u : Purpose) p, Counts s e u p → p.Physical := by
      intro u p hp
      rcases List.mem_append.1 hp.1 with h | h
      · exact (hs.evse e (List.mem_of_getElem? hg) p h).2
      · exact (hs.station p h).2
    have g1 := dext.good (gcount .external)
    have g3 := dmx.good (fun p hp => (hs.station p hp.1).2)
    have g2 : Good tx := by
      unfold TxDecides at dtx
      split at dtx
      · obtain ⟨a, b, da, db, rfl⟩ := dtx
        exact Good.find (da.good (gcount .tx)) (db.good (gcount .txDefault)) _
      · rw [dtx]; exact Good.none
    intro r hr d hd'
    simp only [List.mem_append, Option.mem_toList] at hr
    rcases hr with (h | h) | h
    · exact (g1.discharge r.1 r.2 d h hd').2
    · exact (g2.discharge r.1 r.2 d h hd').2
    · exact (g3.discharge r.1 r.2 d h hd').2
  have : dischargeLimits (fun _ => true) unit cfg.voltage (o.phases.getD cfg.phases)
      ((ext.toList ++ tx.toList ++ mx.toList).map constraintOf) =
      dischargeLimits (fun d => decide (d < 0)) unit cfg.voltage (o.phases.getD cfg.phases)
      ((ext.toList ++ tx.toList ++ mx.toList).map constraintOf) := by
    unfold dischargeLimits
    apply filterMap_congr'
    intro c hc
    obtain ⟨r, hr, rfl⟩ := List.mem_map.1 hc
    cases hdd : r.2.discharge with
    | none => simp [constraintOf, hdd]
    | some d =>
      have h1' := phys r hr d hdd
      have h2' : d ≠ 0 := fun h0 => hz r hr (by rw [hdd, h0])
      have h3' : d < 0 := lt_of_le_of_ne h1' h2'
      simp [constraintOf, hdd, h3', Option.filter]
  rw [this]
  exact hd

example : (valueAt (composite sortByStack {} exStation 1 .W 0 6000 false) 3500).map (fun o => o.discharge) = some (some (-5520)) := by
  decide +kernel

/-- An external constraint that forbids discharging. -/
def exNoDischarge : Profile :=
  { exExternal with startSchedule := some 0, periods := [{ start := 0, limit := some 10, discharge := some 0, chargingOnly := false }] }

/-- A TxProfile that allows discharging with 20 A. -/
def exDischarge : Profile :=
  { exSetpoint with periods := [{ start := 0, limit := some 32, discharge := some (-20), chargingOnly := false }] }

/-- **C52 (violated).** An external constraint that forbids discharging (limit 0 A) is ignored: the composite schedule allows the
20 A of the TxProfile. -/
theorem C52_zero_violated : ∃ (cfg : Config) (s : Station) (o : Out), cfg.Physical ∧ s.Sane ∧
    (∃ p per, Decides (Counts s ⟨some 0, s.evses.flatMap Evse.profiles⟩ .external) (some 0) 0 0 (some (p, per)) ∧ per.discharge = some 0) ∧
    valueAt (composite sortByStack cfg s 1 .A 0 1000 false) 0 = some o ∧ o.discharge = some (-20) := by
  refine ⟨{}, ⟨[], [⟨some 0, [exNoDischarge, exDischarge]⟩]⟩,
    ⟨10, none, none, some (-20), none, none, none, none, none, none⟩, exConfig_physical,
    Station.sane_of_check (by decide +kernel), ⟨_, _, ⟨⟨List.mem_cons_self, rfl⟩, rfl, ?_⟩, rfl⟩, by decide +kernel, rfl⟩
  rintro q ⟨hq, hp⟩ _
  simp only [List.flatMap_cons, List.flatMap_nil, List.append_nil, List.mem_cons, List.not_mem_nil, or_false] at hq
  rcases hq with rfl | rfl
  · exact Int.le_refl _
  · cases hp

/-! ## C53 -/

/-- A TxProfile whose limit on the second phase drops from 32 A to 6 A after 100 s, while the limit of the first phase stays. -/
def exPhases : Profile :=
  { id := 7, stack := 1, purpose := .tx, kind := .relative, unit := .A,
    periods := [{ start := 0, limit := some 32, limitL2 := some 32, limitL3 := some 32, phases := some 3 },
      { start := 100, limit := some 32, limitL2 := some 6, limitL3 := some 32, phases := some 3 }] }

/-- **C53 (violated).** With OCPP 2.1 the change of the limit of the second phase is not in the composite schedule: at instant 200
the period in force says 6 A for the second phase and the composite schedule says 32 A. -/
theorem C53_phase_limits_violated : ∃ (cfg : Config) (s : Station) (p : Profile) (per : Period) (o : Out), cfg.Physical ∧ cfg.v21 = true ∧
    s.evses = [⟨some 0, [p]⟩] ∧ s.profiles = [] ∧ p.inForce (some 0) 0 200 = some per ∧ per.limitL2 = some 6 ∧
    valueAt (composite sortByStack cfg s 1 .A 0 1000 false) 200 = some o ∧ o.limitL2 = some 32 :=
  ⟨{ v21 := true }, ⟨[], [⟨some 0, [exPhases]⟩]⟩, exPhases, _, ⟨32, some 32, some 32, none, none, none, none, none, none, some 3⟩,
    ⟨by decide +kernel, by decide +kernel, by decide +kernel, by decide +kernel⟩, rfl, rfl, rfl, rfl, rfl, by decide +kernel, rfl⟩

end Verif.SC2
