import Verif.SmartCharging.V2Lemmas

/-! The composite schedule of an EVSE and of the station at one instant (2.x). -/

set_option linter.unusedSimpArgs false

namespace Verif.SC2
open Verif.SC
open Verif.SC16 (RUnit fltMax noLimit Limit lowestPhases highestPhases IsMin pickPhases noLimit_neg fltMax_big lowestPhases_mem
  highestPhases_mem lowest_convert)

theorem generate_decides (sort : Sorter) (hsort : SortsByStack sort) (now stop : Int) (session : Option Int)
    (ps : List Profile) (purpose : Purpose) (hps : ∀ p ∈ ps, p.purpose = purpose → p.Ordered) (hw : stop - now ≤ intMax)
    (t : Int) (h1 : now ≤ t) (h2 : t < stop) :
    ∃ r, Decides (fun p => p ∈ ps ∧ p.purpose = purpose) session now t r ∧
      valueAt (generate sort (allEntries now stop session ps purpose) now stop gapIP) (t - now) = some (toIP r) := by
  obtain ⟨r, hr, hv⟩ := decides_of_genValue sort hsort now stop session ps purpose hps t h1 h2
  refine ⟨r, hr, ?_⟩
  rw [generate_at sort hsort _ now stop gapIP hw t h1 h2, hv]
  rcases r with _ | ⟨p, per⟩ <;> rfl

/-! ## Well-formedness -/

theorem mergeTx_wf {a b : List (Step IP)} {dur : Int} (h0 : 0 < dur) (hd : dur ≤ intMax) (ha : WellFormed a dur) (hb : WellFormed b dur) :
    WellFormed (mergeTx a b) dur := by
  apply combine_wf _ _ _ dur h0 hd
  intro p hp
  rcases List.mem_cons.1 hp with rfl | hp
  · exact ha
  · rw [List.mem_singleton.1 hp]; exact hb

theorem evseIntermediates_wf (sort : Sorter) (a b : List Profile) {now stop : Int} (session : Option Int) (simulate : Bool)
    (h0 : now < stop) (hw : stop - now ≤ intMax) :
    ∀ l ∈ evseIntermediates sort a b now stop session simulate, WellFormed l (stop - now) := by
  intro l hl
  unfold evseIntermediates at hl
  simp only at hl
  split at hl
  · rcases List.mem_cons.1 hl with rfl | hl
    · exact generate_wf _ _ _ _ _ h0 hw
    · rw [List.mem_singleton.1 hl]
      exact mergeTx_wf (by omega) hw (generate_wf _ _ _ _ _ h0 hw) (generate_wf _ _ _ _ _ h0 hw)
  · rw [List.mem_singleton.1 hl]; exact generate_wf _ _ _ _ _ h0 hw

theorem evseLimits_wf (sort : Sorter) (cfg : Config) (s : Station) (e : Evse) {now stop : Int} (simulate : Bool)
    (h0 : now < stop) (hw : stop - now ≤ intMax) : WellFormed (evseLimits sort cfg s e now stop simulate) (stop - now) := by
  unfold evseLimits mergeLowest
  apply combine_wf _ _ _ _ (by omega) hw
  intro p hp
  rcases List.mem_append.1 hp with hp | hp
  · exact evseIntermediates_wf sort _ _ _ _ h0 hw p hp
  · rw [List.mem_singleton.1 hp]; exact generate_wf _ _ _ _ _ h0 hw

theorem evseSchedule_wf (sort : Sorter) (v21 : Bool) (a b : List Profile) {now stop : Int} (session : Option Int) (simulate : Bool)
    (h0 : now < stop) (hw : stop - now ≤ intMax) :
    WellFormed (mergeLowest v21 (evseIntermediates sort a b now stop session simulate)) (stop - now) :=
  combine_wf _ _ _ _ (by omega) hw (evseIntermediates_wf sort a b session simulate h0 hw)

theorem stationLimits_wf (sort : Sorter) (cfg : Config) (s : Station) {now stop : Int} (simulate : Bool)
    (h0 : now < stop) (hw : stop - now ≤ intMax) : WellFormed (stationLimits sort cfg s now stop simulate) (stop - now) := by
  unfold stationLimits
  apply combine_wf _ _ _ _ (by omega) hw
  intro p hp
  rcases List.mem_cons.1 hp with rfl | hp
  · apply combine_wf _ _ _ _ (by omega) hw
    intro q hq
    obtain ⟨c, _, rfl⟩ := List.mem_map.1 hq
    exact evseSchedule_wf sort _ _ _ _ _ h0 hw
  · rw [List.mem_singleton.1 hp]; exact generate_wf _ _ _ _ _ h0 hw

/-! ## Duplicates -/

/-- What the code compares of two consecutive periods. -/
def Out.Same (a b : Out) : Prop := a.limit = b.limit ∧ a.phases = b.phases ∧ a.setpoint = b.setpoint ∧ a.discharge = b.discharge

theorem dedup_mem : ∀ (l : List (Step Out)) (last : Option Out), ∀ s ∈ dedup last l, s ∈ l := by
  intro l
  induction l with
  | nil => intro last s hs; simp [dedup] at hs
  | cons a l ih =>
    intro last s hs
    unfold dedup at hs
    split at hs
    · split at hs
      · rcases List.mem_cons.1 hs with rfl | hs
        · simp
        · exact List.mem_cons_of_mem _ (ih _ s hs)
      · exact List.mem_cons_of_mem _ (ih _ s hs)
    · rcases List.mem_cons.1 hs with rfl | hs
      · simp
      · exact List.mem_cons_of_mem _ (ih _ s hs)

theorem dedup_sublist : ∀ (l : List (Step Out)) (last : Option Out), (dedup last l).Sublist l := by
  intro l
  induction l with
  | nil => intro last; simp [dedup]
  | cons a l ih =>
    intro last
    unfold dedup
    split
    · split
      · exact (ih _).cons_cons a
      · exact (ih _).cons a
    · exact (ih _).cons_cons a

theorem dedup_differ : ∀ (l : List (Step Out)) (last : Option Out),
    (∀ a rest, dedup last l = a :: rest → ∀ x, last = some x → ¬ a.val.Same x) ∧
    (dedup last l).IsChain (fun a b => ¬ b.val.Same a.val) := by
  intro l
  induction l with
  | nil => intro last; simp [dedup]
  | cons a l ih =>
    intro last
    have hcons : (a :: dedup (some a.val) l).IsChain (fun a b => ¬ b.val.Same a.val) := by
      obtain ⟨h1, h2⟩ := ih (some a.val)
      cases hd : dedup (some a.val) l with
      | nil => simp
      | cons b rest =>
        rw [hd] at h2
        exact List.IsChain.cons_cons (h1 b rest hd _ rfl) h2
    unfold dedup
    split
    · rename_i x
      split
      · rename_i hc
        refine ⟨?_, hcons⟩
        intro b rest hb y hy hs
        injection hb with h1 h2
        injection hy with h3
        subst h1 h3
        obtain ⟨s1, s2, s3, s4⟩ := hs
        simp [s1, s2, s3, s4] at hc
      · exact ih (some x)
    · exact ⟨by simp, hcons⟩

/-- Removing duplicates does not change what the list says. -/
theorem dedup_valueAt : ∀ (l : List (Step Out)) (last : Option Out) (t : Int), l.Pairwise (fun a b => a.start < b.start) →
    match valueAt l t with
    | none => valueAt (dedup last l) t = none
    | some v => (∃ w, valueAt (dedup last l) t = some w ∧ w.Same v) ∨
        (valueAt (dedup last l) t = none ∧ ∃ x, last = some x ∧ x.Same v) := by
  intro l
  induction l with
  | nil => intro last t _; simp [valueAt, dedup]
  | cons a l ih =>
    intro last t hp
    obtain ⟨ha, hl⟩ := List.pairwise_cons.1 hp
    by_cases hlater : ∃ s ∈ l, s.start ≤ t
    · have e : ∀ m : List (Step Out), (∃ s ∈ m, s.start ≤ t) → valueAt (a :: m) t = valueAt m t := by
        intro m hm
        exact valueAt_cons_of_later a m t hm
      rw [e l hlater]
      have hsome : ∃ v, valueAt l t = some v := by
        cases hv : valueAt l t with
        | some v => exact ⟨v, rfl⟩
        | none =>
          unfold valueAt at hv
          simp only [Option.map_eq_none_iff, List.getLast?_eq_none_iff, List.filter_eq_nil_iff] at hv
          obtain ⟨s, hs, hs'⟩ := hlater
          have := hv s hs
          simp [hs'] at this
      obtain ⟨v, hv⟩ := hsome
      have hat : a.start ≤ t := by
        obtain ⟨s, hs, hs'⟩ := hlater
        have := ha s hs
        omega
      have keep : ∃ w, valueAt (a :: dedup (some a.val) l) t = some w ∧ w.Same v := by
        have := ih (some a.val) t hl
        rw [hv] at this
        simp only at this
        rcases this with ⟨w, hw, hs⟩ | ⟨hn, x, hx, hs⟩
        · refine ⟨w, ?_, hs⟩
          rw [e]
          · exact hw
          · unfold valueAt at hw
            obtain ⟨y, hy, _⟩ := Option.map_eq_some_iff.1 hw
            have := List.mem_of_getLast? hy
            rw [List.mem_filter] at this
            exact ⟨y, this.1, by simpa using this.2⟩
        · injection hx with hx
          subst hx
          refine ⟨a.val, ?_, hs⟩
          apply valueAt_cons_of_none_later _ _ _ hat
          intro s hs'
          unfold valueAt at hn
          simp only [Option.map_eq_none_iff, List.getLast?_eq_none_iff, List.filter_eq_nil_iff] at hn
          have := hn s hs'
          simp only [decide_eq_true_eq] at this
          omega
      cases last with
      | none => rw [hv]; exact Or.inl keep
      | some x =>
        simp only [dedup]
        split
        · rename_i v' heq
          rw [hv] at heq; cases heq
        · rename_i v' heq
          rw [hv] at heq; injection heq with heq; subst heq
          split
          · exact Or.inl keep
          · have := ih (some x) t hl
            rw [hv] at this
            exact this
    · have hnl : ∀ s ∈ l, ¬ s.start ≤ t := fun s hs h => hlater ⟨s, hs, h⟩
      have hn : ∀ la, ∀ s ∈ dedup la l, ¬ s.start ≤ t := fun la s hs => hnl s (dedup_mem l la s hs)
      have hvn : ∀ la, valueAt (dedup la l) t = none := by
        intro la
        unfold valueAt
        simp only [Option.map_eq_none_iff, List.getLast?_eq_none_iff, List.filter_eq_nil_iff, decide_eq_true_eq]
        exact hn la
      by_cases hat : a.start ≤ t
      · have hva : valueAt (a :: l) t = some a.val :=
          valueAt_cons_of_none_later a l t hat (fun s hs => by have := hnl s hs; omega)
        rw [hva]
        simp only
        have keep : valueAt (a :: dedup (some a.val) l) t = some a.val :=
          valueAt_cons_of_none_later a _ t hat (fun s hs => by have := hn _ s hs; omega)
        unfold dedup
        split
        · rename_i x
          split
          · exact Or.inl ⟨a.val, keep, rfl, rfl, rfl, rfl⟩
          · rename_i hc
            right
            refine ⟨hvn _, x, rfl, ?_⟩
            simp only [not_or, ne_eq, not_not] at hc
            exact ⟨hc.1.symm, hc.2.1.symm, hc.2.2.1.symm, hc.2.2.2.symm⟩
        · exact Or.inl ⟨a.val, keep, rfl, rfl, rfl, rfl⟩
      · have hva : valueAt (a :: l) t = none := by
          unfold valueAt
          simp only [Option.map_eq_none_iff, List.getLast?_eq_none_iff, List.filter_eq_nil_iff, decide_eq_true_eq, List.mem_cons]
          rintro s (rfl | hs)
          · exact hat
          · exact hnl s hs
        rw [hva]
        simp only
        unfold valueAt
        simp only [Option.map_eq_none_iff, List.getLast?_eq_none_iff, List.filter_eq_nil_iff, decide_eq_true_eq]
        intro s hs
        rcases List.mem_cons.1 (dedup_mem _ _ s hs) with rfl | hs
        · exact hat
        · exact hnl s hs

theorem convertAll_at (unit : RUnit) (dl : Rat) (dp : Int) (v : Rat) (l : List (Step IP)) (dur : Int) (hw : WellFormed l dur) (t : Int)
    (x : IP) (hx : valueAt l t = some x) :
    ∃ o, valueAt (convertAll unit dl dp v l) t = some o ∧ o.Same (convert unit dl dp v x) := by
  unfold convertAll
  have h := dedup_valueAt (l.map fun s => ⟨s.start, convert unit dl dp v s.val⟩) none t (by
    rw [List.pairwise_map]; exact hw.increasing)
  rw [SC16.valueAt_map, hx] at h
  simp only [Option.map_some] at h
  rcases h with h | ⟨_, x, hx, _⟩
  · exact h
  · cases hx

theorem convertAll_wf (unit : RUnit) (dl : Rat) (dp : Int) (v : Rat) (l : List (Step IP)) (dur : Int) (hw : WellFormed l dur) :
    WellFormed (convertAll unit dl dp v l) dur ∧ (convertAll unit dl dp v l).IsChain (fun a b => ¬ b.val.Same a.val) := by
  unfold convertAll
  refine ⟨⟨?_, ?_, ?_⟩, (dedup_differ _ none).2⟩
  · obtain ⟨w, rest, e⟩ := hw.first
    rw [e]
    exact ⟨_, _, rfl⟩
  · apply List.Pairwise.sublist (dedup_sublist _ _)
    rw [List.pairwise_map]; exact hw.increasing
  · intro s hs
    obtain ⟨x, hx, rfl⟩ := List.mem_map.1 (dedup_mem _ _ s hs)
    exact hw.inside x hx

/-! ## One EVSE -/

theorem Good.find {a b : Option (Profile × Period)} (ha : Good a) (hb : Good b) (f : Profile × Period → Bool) :
    Good ((a.toList ++ b.toList).find? f) := by
  rcases a with _ | x <;> rcases b with _ | y
  · exact Good.none
  · simp only [Option.toList_none, Option.toList_some, List.nil_append, List.find?_cons, List.find?_nil]
    cases f y
    · exact Good.none
    · exact hb
  · simp only [Option.toList_none, Option.toList_some, List.append_nil, List.find?_cons, List.find?_nil]
    cases f x
    · exact Good.none
    · exact ha
  · simp only [Option.toList_some, List.cons_append, List.nil_append, List.find?_cons, List.find?_nil]
    cases f x
    · cases f y
      · exact Good.none
      · exact hb
    · exact ha

/-- What constrains an EVSE at an instant, apart from the station limit: the external constraint and the transaction profile. -/
theorem evse_at (sort : Sorter) (hsort : SortsByStack sort) (s : Station) (hs : s.Sane) (e : Evse) (he : e ∈ s.evses)
    (now stop : Int) (simulate : Bool) (hw : stop - now ≤ intMax) (t : Int) (h1 : now ≤ t) (h2 : t < stop) :
    ∃ ext r, Decides (Counts s e .external) e.session now t ext ∧ TxDecides s e simulate now t r ∧ Good ext ∧ Good r ∧
      (evseIntermediates sort e.profiles s.profiles now stop e.session simulate).filterMap (fun p => valueAt p (t - now)) =
        (if e.session ≠ none ∨ simulate = true then [toIP ext, toIP r] else [toIP ext]) := by
  have hact : (e.session.isSome || simulate) = true ↔ (e.session ≠ none ∨ simulate = true) := by
    cases e.session <;> simp
  have all : ∀ p ∈ e.profiles ++ s.profiles, p.Ordered ∧ p.Physical := by
    intro p hp
    rcases List.mem_append.1 hp with hp | hp
    · exact hs.evse e he p hp
    · exact hs.station p hp
  obtain ⟨ext, dext, vext⟩ := generate_decides sort hsort now stop e.session (e.profiles ++ s.profiles) .external
    (fun p hp _ => (all p hp).1) hw t h1 h2
  have gext : Good ext := dext.good (fun p hp => (all p hp.1).2)
  unfold evseIntermediates TxDecides
  simp only
  by_cases ha : e.session ≠ none ∨ simulate = true
  · rw [if_pos (hact.2 ha)]
    simp only [if_pos ha]
    obtain ⟨a, da, va⟩ := generate_decides sort hsort now stop e.session (e.profiles ++ s.profiles) .tx
      (fun p hp _ => (all p hp).1) hw t h1 h2
    obtain ⟨b, db, vb⟩ := generate_decides sort hsort now stop e.session (e.profiles ++ s.profiles) .txDefault
      (fun p hp _ => (all p hp).1) hw t h1 h2
    have ga : Good a := da.good (fun p hp => (all p hp.1).2)
    have gb : Good b := db.good (fun p hp => (all p hp.1).2)
    refine ⟨ext, _, dext, ⟨a, b, da, db, rfl⟩, gext, ga.find gb specifies, ?_⟩
    have w1 := generate_wf sort (allEntries now stop e.session (e.profiles ++ s.profiles) .tx) now stop gapIP (by omega) hw
    have w2 := generate_wf sort (allEntries now stop e.session (e.profiles ++ s.profiles) .txDefault) now stop gapIP (by omega) hw
    have hv := combine_at gapIP txComb
      [generate sort (allEntries now stop e.session (e.profiles ++ s.profiles) .tx) now stop gapIP,
       generate sort (allEntries now stop e.session (e.profiles ++ s.profiles) .txDefault) now stop gapIP]
      (by simp) (stop - now) hw (by
      intro p hp
      rcases List.mem_cons.1 hp with rfl | hp
      · exact w1
      · rw [List.mem_singleton.1 hp]; exact w2) (t - now) (by omega)
    simp only [List.filterMap_cons, List.filterMap_nil, va, vb, txComb_pair a b ga gb] at hv
    unfold mergeTx
    simp only [List.filterMap_cons, List.filterMap_nil, hv, vext]
  · rw [if_neg (fun h => ha (hact.1 h))]
    simp only [if_neg ha]
    refine ⟨ext, none, dext, rfl, gext, Good.none, ?_⟩
    simp [List.filterMap_cons, vext]

theorem station_at (sort : Sorter) (hsort : SortsByStack sort) (s : Station) (hs : s.Sane)
    (session : Option Int) (now stop : Int) (hw : stop - now ≤ intMax) (t : Int) (h1 : now ≤ t) (h2 : t < stop) :
    ∃ r, Decides (StationMax s) session now t r ∧ Good r ∧
      valueAt (generate sort (allEntries now stop session s.profiles .stationMax) now stop gapIP) (t - now) = some (toIP r) := by
  obtain ⟨a, da, va⟩ := generate_decides sort hsort now stop session s.profiles .stationMax
    (fun p hp _ => (hs.station p hp).1) hw t h1 h2
  exact ⟨a, da, da.good (fun p hp => (hs.station p hp.1).2), va⟩

/-! ## Final conversion -/

/-- Limits of constraints as limits of intermediate periods. -/
def limitsOf (c : Constraint) : List Limit := (c.limit.map fun l => (⟨c.unit, l, c.phases⟩ : Limit)).toList

/-- An intermediate period and the constraints it stands for. -/
structure Stands (x : IP) (cs : List Constraint) : Prop where
  ok : (proj x).Ok
  limits : ∀ u l, (∃ c ∈ cs, c.unit = u ∧ c.limit = some l) ↔ (∃ m ∈ SC16.limits (proj x), m.unit = u ∧ m.value = l)
  phases : ∀ n, some n ∈ cs.map Constraint.phases ↔ x.phases = some n
  scalar : LimScalar x
  bound : ∀ c ∈ cs, ∀ l, c.limit = some l → 0 ≤ l ∧ l ≤ 1000000000000000000
  bphases : ∀ n, x.phases = some n → 1 ≤ n ∧ n ≤ 3

theorem stands_toIP {r : Option (Profile × Period)} (h : Good r) : Stands (toIP r) (r.toList.map constraintOf) := by
  refine ⟨ok_toIP h, ?_, ?_, (toIP_scalar h).lim, ?_, ?_⟩
  · intro u l
    rw [limits_toIP h]
    rcases r with _ | ⟨p, per⟩
    · simp
    · simp only [Option.toList_some, List.map_cons, List.map_nil, List.mem_singleton, exists_eq_left, constraintOf,
        List.filterMap_cons, List.filterMap_nil]
      cases hl : limitValue p per with
      | none => simp
      | some x => simp
  · intro n
    rw [phases_toIP]
    rcases r with _ | ⟨p, per⟩
    · simp
    · simp [constraintOf, eq_comm]
  · intro c hc l hl
    rcases r with _ | ⟨p, per⟩
    · simp at hc
    · simp only [Option.toList_some, List.map_cons, List.map_nil, List.mem_singleton] at hc
      subst hc
      have := limitValue_bound h (l := l) hl
      exact ⟨this.1, by linarith [this.2]⟩
  · intro n hn
    rw [phases_toIP] at hn
    rcases r with _ | ⟨p, per⟩
    · cases hn
    · exact h.phases p per n rfl hn

theorem mem_limits_of {xs : List (IP × List Constraint)} (hx : ∀ p ∈ xs, Stands p.1 p.2) (u : RUnit) (l : Rat) :
    (∃ c ∈ xs.flatMap Prod.snd, c.unit = u ∧ c.limit = some l) ↔
    (∃ m ∈ (xs.map (fun p => proj p.1)).flatMap SC16.limits, m.unit = u ∧ m.value = l) := by
  simp only [List.mem_flatMap, List.mem_map]
  constructor
  · rintro ⟨c, ⟨p, hp, hc⟩, hu⟩
    obtain ⟨m, hm, hmu⟩ := ((hx p hp).limits u l).1 ⟨c, hc, hu⟩
    exact ⟨m, ⟨_, ⟨p, hp, rfl⟩, hm⟩, hmu⟩
  · rintro ⟨m, ⟨_, ⟨p, hp, rfl⟩, hm⟩, hu⟩
    obtain ⟨c, hc, hcu⟩ := ((hx p hp).limits u l).2 ⟨m, hm, hu⟩
    exact ⟨c, ⟨p, hp, hc⟩, hcu⟩

theorem inUnit_def (m : Limit) (unit : RUnit) (v : Rat) (n : Int) : m.inUnit unit v n = inUnit m.unit unit v n m.value := by
  obtain ⟨u, x, ph⟩ := m
  unfold inUnit Limit.inUnit
  cases u <;> cases unit <;> rfl

/-- **The merged and converted limit applies the constraints.** -/
theorem applies_of (cfg : Config) (hcfg : cfg.Physical) (v21 : Bool) (unit : RUnit) (xs : List (IP × List Constraint))
    (hx : ∀ p ∈ xs, Stands p.1 p.2) (h3 : (v21 && (xs.map Prod.fst).any threePhase) = false) :
    Applies cfg unit (xs.flatMap Prod.snd)
      (convert unit (configuredDefault cfg unit) cfg.phases cfg.voltage (lowestComb v21 (xs.map Prod.fst))) := by
  have hph : lowestPhases ((xs.flatMap Prod.snd).map Constraint.phases) =
      lowestPhases (((xs.map Prod.fst).map proj).map SC16.IP.phases) := by
    apply SC16.lowestPhases_append
    intro n
    simp only [List.mem_map, List.mem_flatMap, exists_exists_and_eq_and]
    constructor
    · rintro ⟨c, ⟨p, hp, hc⟩, he⟩
      exact ⟨p, hp, ((hx p hp).phases n).1 (List.mem_map.2 ⟨c, hc, he⟩)⟩
    · rintro ⟨p, hp, he⟩
      obtain ⟨c, hc, hce⟩ := List.mem_map.1 (((hx p hp).phases n).2 he)
      exact ⟨c, ⟨p, hp, hc⟩, hce⟩
  obtain ⟨e1, e2⟩ := convert_lowest cfg v21 unit (configuredDefault cfg unit) (xs.map Prod.fst) h3 (by
    intro x hx'
    obtain ⟨p, hp, rfl⟩ := List.mem_map.1 hx'
    exact (hx p hp).scalar)
  unfold Applies
  simp only
  rw [e1, e2, hph]
  have hn : 1 ≤ (lowestPhases (((xs.map Prod.fst).map proj).map SC16.IP.phases)).getD cfg.phases ∧
      (lowestPhases (((xs.map Prod.fst).map proj).map SC16.IP.phases)).getD cfg.phases ≤ 3 := by
    cases hl : lowestPhases (((xs.map Prod.fst).map proj).map SC16.IP.phases) with
    | none => exact hcfg.phases
    | some n =>
      have := lowestPhases_mem hl
      simp only [List.mem_map, exists_exists_and_eq_and] at this
      obtain ⟨p, hp, hpe⟩ := this
      exact (hx p hp).bphases n hpe
  have hv : 0 < cfg.voltage := by linarith [hcfg.voltage.1]
  generalize hN : (lowestPhases (((xs.map Prod.fst).map proj).map SC16.IP.phases)).getD cfg.phases = N at hn
  have hn1 : (1 : Rat) ≤ (N : Int) := by exact_mod_cast hn.1
  have hn3 : ((N : Int) : Rat) ≤ 3 := by exact_mod_cast hn.2
  have lc := lowest_convert unit (configuredDefault cfg unit) cfg.phases cfg.voltage ((xs.map Prod.fst).map proj)
    (by
      intro y hy
      simp only [List.mem_map, exists_exists_and_eq_and] at hy
      obtain ⟨p, hp, rfl⟩ := hy
      exact (hx p hp).ok) hv (by rw [hN]; omega) (by
      rw [hN]
      intro y hy m hm
      simp only [List.mem_map, exists_exists_and_eq_and] at hy
      obtain ⟨p, hp, rfl⟩ := hy
      obtain ⟨c, hc, hcu, hcl⟩ := ((hx p hp).limits m.unit m.value).2 ⟨m, hm, rfl, rfl⟩
      obtain ⟨h0, h1⟩ := (hx p hp).bound c hc m.value hcl
      obtain ⟨v1, v2⟩ := hcfg.voltage
      have p1 : 1 ≤ cfg.voltage * (N : Rat) := by nlinarith
      have p2 : cfg.voltage * (N : Rat) ≤ 3000000 := by nlinarith
      have p3 : m.value * (cfg.voltage * (N : Rat)) ≤ 1000000000000000000 * 3000000 := by
        apply mul_le_mul h1 p2 (by linarith) (by norm_num)
      have p4 : m.value / (cfg.voltage * (N : Rat)) ≤ m.value := div_le_self h0 p1
      have := fltMax_big
      unfold Limit.inUnit
      cases m.unit <;> cases unit <;> simp only <;> linarith)
  rw [hN] at lc
  obtain ⟨c1, c2, c3⟩ := lc
  have memv : ∀ y, y ∈ ((xs.flatMap Prod.snd).filterMap fun c => c.limit.map (inUnit c.unit unit cfg.voltage N)) ↔
      y ∈ ((((xs.map Prod.fst).map proj).flatMap SC16.limits).map fun l => l.inUnit unit cfg.voltage N) := by
    intro y
    rw [List.mem_filterMap, List.mem_map, List.map_map]
    constructor
    · rintro ⟨c, hc, he⟩
      obtain ⟨l, hl, rfl⟩ := Option.map_eq_some_iff.1 he
      obtain ⟨m, hm, hu, hval⟩ := (mem_limits_of hx c.unit l).1 ⟨c, hc, rfl, hl⟩
      exact ⟨m, hm, by rw [inUnit_def, hu, hval]⟩
    · rintro ⟨m, hm, rfl⟩
      obtain ⟨c, hc, hu, hval⟩ := (mem_limits_of hx m.unit m.value).2 ⟨m, hm, rfl, rfl⟩
      exact ⟨c, hc, by rw [hval, Option.map_some, hu, ← inUnit_def]⟩
  refine ⟨c1, ?_, ?_⟩
  · intro h
    apply c2
    intro y hy
    by_contra hne
    obtain ⟨m, hm⟩ := List.exists_mem_of_ne_nil _ hne
    have : m.inUnit unit cfg.voltage N ∈ ([] : List Rat) := by
      rw [← h, memv]
      exact List.mem_map.2 ⟨m, List.mem_flatMap.2 ⟨y, hy, hm⟩, rfl⟩
    cases this
  · intro h
    have hex : ∃ y ∈ (xs.map Prod.fst).map proj, SC16.limits y ≠ [] := by
      obtain ⟨v, hv'⟩ := List.exists_mem_of_ne_nil _ h
      rw [memv] at hv'
      obtain ⟨m, hm, _⟩ := List.mem_map.1 hv'
      obtain ⟨y, hy, hm⟩ := List.mem_flatMap.1 hm
      exact ⟨y, hy, List.ne_nil_of_mem hm⟩
    obtain ⟨m1, m2⟩ := c3 hex
    exact ⟨(memv _).2 m1, fun y hy => m2 y ((memv y).1 hy)⟩

theorem Applies.same {cfg : Config} {unit : RUnit} {cs : List Constraint} {o o' : Out} (h : Applies cfg unit cs o) (hs : o'.Same o) :
    Applies cfg unit cs o' := by
  obtain ⟨s1, s2, _⟩ := hs
  unfold Applies at *
  rw [s1, s2]
  exact h

end Verif.SC2
