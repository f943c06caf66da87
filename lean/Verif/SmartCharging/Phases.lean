import Verif.SmartCharging.V16Theorems
import Verif.SmartCharging.V2Theorems

/-!
C53 for profiles without values for single phases, and C50 for profiles whose validity begins with their schedule.
-/

set_option linter.unusedSimpArgs false

namespace Verif.SC

variable {α : Type}

/-- All values of a list of periods have a property. -/
def AllVal (P : α → Prop) (l : List (Step α)) : Prop := ∀ s ∈ l, P s.val

theorem scan_chosen (P : α → Prop) (cur : Int) : ∀ (l : List (Entry α)) (s : Scan α), (∀ e ∈ l, P e.val) → (∀ c, s.chosen = some c → P c.val) →
    ∀ c, (scan cur s l).chosen = some c → P c.val
  | [], s, _, hs => hs
  | e :: l, s, hl, hs => by
    simp only [scan]
    have he := hl e (List.mem_cons_self ..)
    have hl' : ∀ x ∈ l, P x.val := fun x hx => hl x (List.mem_cons_of_mem _ hx)
    split
    · split
      · intro c hc; cases hc; exact he
      · exact scan_chosen P cur l _ hl' (by intro c hc; cases hc; exact he)
    · exact scan_chosen P cur l s hl' hs

theorem genLoop_all (P : α → Prop) (sorted : List (Entry α)) (now stop : Int) (gap : α) (hg : P gap) (hl : ∀ e ∈ sorted, P e.val) :
    ∀ (fuel : Nat) (cur : Int), AllVal P (genLoop sorted now stop gap fuel cur)
  | 0, _ => by intro s hs; cases hs
  | fuel + 1, cur => by
    have ih := genLoop_all P sorted now stop gap hg hl fuel
    simp only [genLoop]
    split
    · split
      · intro s hs
        rcases List.mem_cons.1 hs with rfl | hs
        · exact hg
        · exact ih _ s hs
      · split
        · intro s hs; cases hs
        · next c hc =>
          have hcv := scan_chosen P cur sorted _ hl (by intro c hc; cases hc) c hc
          intro s hs
          rcases List.mem_cons.1 hs with rfl | hs
          · exact hcv
          · exact ih _ s hs
    · intro s hs; cases hs

theorem generate_all (P : α → Prop) (sort : List (Entry α) → List (Entry α)) (hsort : SortsByStack sort) (ps : List (Entry α)) (now stop : Int) (gap : α) (hg : P gap)
    (hl : ∀ e ∈ ps, P e.val) : AllVal P (generate sort ps now stop gap) := by
  unfold generate
  split
  · intro s hs
    rw [List.mem_singleton.1 hs]; exact hg
  · exact genLoop_all P _ now stop gap hg (fun e he => hl e ((hsort.perm ps).mem_iff.1 he)) _ _

theorem heads_all (P : α → Prop) {its : List (List (Step α))} (h : ∀ it ∈ its, AllVal P it) : ∀ v ∈ heads its, P v := by
  intro v hv
  unfold heads at hv
  obtain ⟨it, hit, hv⟩ := List.mem_filterMap.1 hv
  cases it with
  | nil => simp at hv
  | cons a l => simp at hv; rw [← hv]; exact h _ hit a (List.mem_cons_self ..)

theorem advance_all (P : α → Prop) (nx : Int) {it : List (Step α)} (h : AllVal P it) : AllVal P (advance nx it) := by
  unfold advance
  split
  · split
    · exact fun s hs => h s (List.mem_cons_of_mem _ hs)
    · exact h
  · exact h

theorem heads_ne {its : List (List (Step α))} (hne : its ≠ []) (h : ∀ it ∈ its, it ≠ []) : heads its ≠ [] := by
  cases its with
  | nil => exact absurd rfl hne
  | cons it its =>
    cases it with
    | nil => exact absurd rfl (h [] (List.mem_cons_self ..))
    | cons a l => simp [heads]

theorem advance_ne (nx : Int) {it : List (Step α)} (h : it ≠ []) : advance nx it ≠ [] := by
  unfold advance
  split
  · split <;> simp
  · exact h

theorem combineLoop_all [DecidableEq α] (P Q : α → Prop) (f : List α → α) (hf : ∀ xs, xs ≠ [] → (∀ x ∈ xs, P x) → Q (f xs)) :
    ∀ (fuel : Nat) (cur : Int) (its : List (List (Step α))) (last : Option α), its ≠ [] → (∀ it ∈ its, it ≠ []) → (∀ it ∈ its, AllVal P it) →
      AllVal Q (combineLoop f fuel cur its last)
  | 0, _, _, _, _, _, _ => by intro s hs; cases hs
  | fuel + 1, cur, its, last, hn, hne, h => by
    have hv := hf _ (heads_ne hn hne) (heads_all P h)
    have hadv : ∀ nx, ∀ it ∈ its.map (advance nx), it ≠ [] ∧ AllVal P it := by
      intro nx it hit
      obtain ⟨x, hx, rfl⟩ := List.mem_map.1 hit
      exact ⟨advance_ne nx (hne x hx), advance_all P nx (h x hx)⟩
    have hrest : ∀ last', AllVal Q (if nextLowest cur its = intMax then [] else combineLoop f fuel (nextLowest cur its) (its.map (advance (nextLowest cur its))) last') := by
      intro last'
      split
      · intro s hs; cases hs
      · exact combineLoop_all P Q f hf fuel _ _ _ (by simpa using hn) (fun it hit => (hadv _ it hit).1) (fun it hit => (hadv _ it hit).2)
    simp only [combineLoop]
    split
    · exact hrest _
    · intro s hs
      rcases List.mem_cons.1 hs with rfl | hs
      · exact hv
      · exact hrest _ s hs

theorem combine_all [DecidableEq α] (P Q : α → Prop) (gap : α) (hg : Q gap) (f : List α → α) (hf : ∀ xs, xs ≠ [] → (∀ x ∈ xs, P x) → Q (f xs)) {ps : List (List (Step α))}
    (h : ∀ p ∈ ps, AllVal P p) : AllVal Q (combine gap f ps) := by
  unfold combine
  split
  · intro s hs; rw [List.mem_singleton.1 hs]; exact hg
  · dsimp only
    split
    · intro s hs; rw [List.mem_singleton.1 hs]; exact hg
    · next hi =>
      exact combineLoop_all P Q f hf _ _ _ _ hi (fun it hit => by have := (List.mem_filter.1 hit).2; simpa using this)
        (fun it hit => h it (List.mem_filter.1 hit).1)

end Verif.SC

namespace Verif.SC2
open Verif.SC
open Verif.SC16 (RUnit fltMax noLimit noLimit_neg fltMax_big)

/-- A profile none of whose periods says anything about single phases. -/
def Profile.NoPhaseValues (p : Profile) : Prop :=
  ∀ x ∈ p.periods, x.limitL2 = none ∧ x.limitL3 = none ∧ x.dischargeL2 = none ∧ x.dischargeL3 = none ∧ x.setpointL2 = none ∧ x.setpointL3 = none

/-- A period of a composite schedule says nothing about single phases. -/
def Out.NoPhaseValues (o : Out) : Prop :=
  o.limitL2 = none ∧ o.limitL3 = none ∧ o.dischargeL2 = none ∧ o.dischargeL3 = none ∧ o.setpointL2 = none ∧ o.setpointL3 = none

/-- As `Scalar`, but discharge limits of the phases may also be 0 (the sum over the EVSEs). -/
structure Weak (x : IP) : Prop where
  cur : x.cur.l2 = noLimit ∧ x.cur.l3 = noLimit
  pow : x.pow.l2 = noLimit ∧ x.pow.l3 = noLimit
  disCur : (x.disCur.l2 = noDischarge ∨ x.disCur.l2 = 0) ∧ (x.disCur.l3 = noDischarge ∨ x.disCur.l3 = 0)
  disPow : (x.disPow.l2 = noDischarge ∨ x.disPow.l2 = 0) ∧ (x.disPow.l3 = noDischarge ∨ x.disPow.l3 = 0)
  setCur : x.setCur.l2 = noSetpoint ∧ x.setCur.l3 = noSetpoint
  setPow : x.setPow.l2 = noSetpoint ∧ x.setPow.l3 = noSetpoint

theorem Scalar.weak {x : IP} (h : Scalar x) : Weak x :=
  ⟨h.cur, h.pow, ⟨.inl h.disCur.1, .inl h.disCur.2⟩, ⟨.inl h.disPow.1, .inl h.disPow.2⟩, h.setCur, h.setPow⟩

/-- The accumulator of the merge. -/
structure AccOk (x : IP) : Prop where
  cur : x.cur.l2 = fltMax ∧ x.cur.l3 = fltMax
  pow : x.pow.l2 = fltMax ∧ x.pow.l3 = fltMax
  disCur : x.disCur.l2 = noDischarge ∧ x.disCur.l3 = noDischarge
  disPow : x.disPow.l2 = noDischarge ∧ x.disPow.l3 = noDischarge
  setCur : x.setCur.l2 = fltMax ∧ x.setCur.l3 = fltMax
  setPow : x.setPow.l2 = fltMax ∧ x.setPow.l3 = fltMax

theorem setSetpoint_l3 (s1 s2 cap dis : PL) (h1 : s1.l3 = fltMax) (h2 : s2.l3 = fltMax) (h3 : cap.l3 = fltMax) (h4 : dis.l3 = noDischarge) :
    (setSetpoint s1 s2 cap dis).l3 = fltMax := by
  have := setSetpoint_l2 ⟨s1.l1, s1.l3, s1.l2⟩ ⟨s2.l1, s2.l3, s2.l2⟩ ⟨cap.l1, cap.l3, cap.l2⟩ ⟨dis.l1, dis.l3, dis.l2⟩ h1 h2 h3 h4
  have e : (setSetpoint s1 s2 cap dis).l3 = (setSetpoint ⟨s1.l1, s1.l3, s1.l2⟩ ⟨s2.l1, s2.l3, s2.l2⟩ ⟨cap.l1, cap.l3, cap.l2⟩ ⟨dis.l1, dis.l3, dis.l2⟩).l2 := by
    unfold setSetpoint
    dsimp only
    repeat' split
    all_goals first | rfl | simp_all [getMaxPL, getMinPL]
  rw [e]; exact this

theorem lowestStep_acc (ph : Option Int) {acc x : IP} (ha : AccOk acc) (hx : Weak x) : AccOk (lowestStep false ph acc x) := by
  have f0 : ¬ (0 : Rat) ≤ noLimit := noLimit_neg
  have nd : ∀ d : Rat, d = noDischarge ∨ d = 0 → getMax noDischarge d none = noDischarge := by
    rintro d (rfl | rfl) <;> simp [getMax]
  have c2 : (getMinPL acc.cur x.cur none).l2 = fltMax := by simp [getMinPL, getMin_none, ha.cur.1, hx.cur.1, f0]
  have c3 : (getMinPL acc.cur x.cur none).l3 = fltMax := by simp [getMinPL, getMin_none, ha.cur.2, hx.cur.2, f0]
  have p2 : (getMinPL acc.pow x.pow none).l2 = fltMax := by simp [getMinPL, getMin_none, ha.pow.1, hx.pow.1, f0]
  have p3 : (getMinPL acc.pow x.pow none).l3 = fltMax := by simp [getMinPL, getMin_none, ha.pow.2, hx.pow.2, f0]
  have d2 : (getMaxPL acc.disCur x.disCur none).l2 = noDischarge := by
    simp only [getMaxPL, Option.map_none, ha.disCur.1]; exact nd _ hx.disCur.1
  have d3 : (getMaxPL acc.disCur x.disCur none).l3 = noDischarge := by
    simp only [getMaxPL, Option.map_none, ha.disCur.2]; exact nd _ hx.disCur.2
  have e2 : (getMaxPL acc.disPow x.disPow none).l2 = noDischarge := by
    simp only [getMaxPL, Option.map_none, ha.disPow.1]; exact nd _ hx.disPow.1
  have e3 : (getMaxPL acc.disPow x.disPow none).l3 = noDischarge := by
    simp only [getMaxPL, Option.map_none, ha.disPow.2]; exact nd _ hx.disPow.2
  exact ⟨⟨c2, c3⟩, ⟨p2, p3⟩, ⟨d2, d3⟩, ⟨e2, e3⟩,
    ⟨setSetpoint_l2 _ _ _ _ ha.setCur.1 hx.setCur.1 c2 d2, setSetpoint_l3 _ _ _ _ ha.setCur.2 hx.setCur.2 c3 d3⟩,
    ⟨setSetpoint_l2 _ _ _ _ ha.setPow.1 hx.setPow.1 p2 e2, setSetpoint_l3 _ _ _ _ ha.setPow.2 hx.setPow.2 p3 e3⟩⟩

theorem fold_acc (ph : Option Int) : ∀ (xs : List IP) (acc : IP), AccOk acc → (∀ x ∈ xs, Weak x) → AccOk (xs.foldl (lowestStep false ph) acc)
  | [], _, h, _ => h
  | x :: xs, acc, h, hx => fold_acc ph xs _ (lowestStep_acc ph h (hx x (List.mem_cons_self ..))) (fun y hy => hx y (List.mem_cons_of_mem _ hy))

theorem lowestComb_scalar (v21 : Bool) (xs : List IP) (h3 : (v21 && xs.any threePhase) = false) (hx : ∀ x ∈ xs, Weak x) : Scalar (lowestComb v21 xs) := by
  rw [lowestComb_eq v21 xs h3]
  have ha : AccOk (start0 (lowestPhasesOf xs)) := ⟨⟨rfl, rfl⟩, ⟨rfl, rfl⟩, ⟨rfl, rfl⟩, ⟨rfl, rfl⟩, ⟨rfl, rfl⟩, ⟨rfl, rfl⟩⟩
  have hf := fold_acc (lowestPhasesOf xs) xs _ ha hx
  generalize xs.foldl (lowestStep false (lowestPhasesOf xs)) (start0 (lowestPhasesOf xs)) = r at hf ⊢
  refine ⟨?_, ?_, hf.disCur, hf.disPow, ?_, ?_⟩
  · simp [replaceMax, hf.cur.1, hf.cur.2]
  · simp [replaceMax, hf.pow.1, hf.pow.2]
  · simp [replaceMax, hf.setCur.1, hf.setCur.2]
  · simp [replaceMax, hf.setPow.1, hf.setPow.2]

theorem gap_scalar : Scalar gapIP := ⟨⟨rfl, rfl⟩, ⟨rfl, rfl⟩, ⟨rfl, rfl⟩, ⟨rfl, rfl⟩, ⟨rfl, rfl⟩, ⟨rfl, rfl⟩⟩

theorem txComb_scalar : ∀ (xs : List IP), (∀ x ∈ xs, Scalar x) → Scalar (txComb xs)
  | [], _ => gap_scalar
  | x :: xs, h => by
    simp only [txComb]
    split
    · exact h x (List.mem_cons_self ..)
    · exact txComb_scalar xs (fun y hy => h y (List.mem_cons_of_mem _ hy))

theorem content_scalar {p : Profile} {per : Period} (h : per.limitL2 = none ∧ per.limitL3 = none ∧ per.dischargeL2 = none ∧ per.dischargeL3 = none ∧
    per.setpointL2 = none ∧ per.setpointL3 = none) : Scalar (content p per) := by
  obtain ⟨h1, h2, h3, h4, h5, h6⟩ := h
  unfold content
  split
  · exact ⟨by simp [entryLimit, h1, h2], ⟨rfl, rfl⟩, by simp [entryDischarge, h3, h4], ⟨rfl, rfl⟩, by simp [entrySetpoint, h5, h6], ⟨rfl, rfl⟩⟩
  · exact ⟨⟨rfl, rfl⟩, by simp [entryLimit, h1, h2], ⟨rfl, rfl⟩, by simp [entryDischarge, h3, h4], ⟨rfl, rfl⟩, by simp [entrySetpoint, h5, h6]⟩

theorem mkEntry_val {p : Profile} {per : Period} {s d now : Int} {e : Entry IP} (h : mkEntry p per s d now = some e) : e.val = content p per := by
  unfold mkEntry at h
  dsimp only at h
  repeat' split at h
  all_goals first | (cases h; rfl) | cases h

theorem entries_scalar {p : Profile} (h : p.NoPhaseValues) {now stop : Int} {session : Option Int} {e : Entry IP} (he : e ∈ profileEntries now stop session p) :
    Scalar e.val := by
  unfold profileEntries at he
  simp only [List.mem_flatMap, List.mem_range, List.mem_filter] at he
  obtain ⟨i, _, he, _⟩ := he
  unfold profileEntry at he
  cases hi : p.periods[i]? with
  | none => rw [hi] at he; simp at he
  | some per =>
    rw [hi] at he
    dsimp only at he
    split at he
    · obtain ⟨sn, _, hm⟩ := List.mem_filterMap.1 he
      rw [mkEntry_val hm]
      exact content_scalar (h per (List.mem_of_getElem? hi))
    · simp at he

theorem allEntries_scalar {ps : List Profile} (h : ∀ p ∈ ps, p.NoPhaseValues) {now stop : Int} {session : Option Int} {purpose : Purpose} {e : Entry IP}
    (he : e ∈ allEntries now stop session ps purpose) : Scalar e.val := by
  unfold allEntries at he
  obtain ⟨p, hp, he⟩ := List.mem_flatMap.1 he
  exact entries_scalar (h p (List.mem_filter.1 hp).1) he

theorem gen_scalar (sort : Sorter) (hsort : SortsByStack sort) {ps : List Profile} (h : ∀ p ∈ ps, p.NoPhaseValues) (now stop : Int) (session : Option Int) (purpose : Purpose) :
    AllVal Scalar (generate sort (allEntries now stop session ps purpose) now stop gapIP) :=
  generate_all Scalar sort hsort _ now stop gapIP gap_scalar (fun _ he => allEntries_scalar h he)

theorem intermediates_scalar (sort : Sorter) (hsort : SortsByStack sort) {a b : List Profile} (ha : ∀ p ∈ a, p.NoPhaseValues) (hb : ∀ p ∈ b, p.NoPhaseValues) (now stop : Int)
    (session : Option Int) (simulate : Bool) : ∀ l ∈ evseIntermediates sort a b now stop session simulate, AllVal Scalar l := by
  have hab : ∀ p ∈ a ++ b, p.NoPhaseValues := by
    intro p hp
    rcases List.mem_append.1 hp with hp | hp
    · exact ha p hp
    · exact hb p hp
  have hx := gen_scalar sort hsort hab now stop session
  unfold evseIntermediates
  dsimp only
  split
  · intro l hl
    simp only [List.mem_cons, List.not_mem_nil, or_false] at hl
    rcases hl with rfl | rfl
    · exact hx _
    · unfold mergeTx
      refine combine_all Scalar Scalar gapIP gap_scalar txComb (fun xs _ h => txComb_scalar xs h) ?_
      intro p hp
      simp only [List.mem_cons, List.not_mem_nil, or_false] at hp
      rcases hp with rfl | rfl
      · exact hx _
      · exact hx _
  · intro l hl
    rw [List.mem_singleton.1 hl]
    exact hx _

theorem mergeLowest_scalar (v21 : Bool) {ps : List (List (Step IP))} (h : ∀ p ∈ ps, AllVal Scalar p) : AllVal Scalar (mergeLowest v21 ps) :=
  combine_all Scalar Scalar gapIP gap_scalar _ (fun xs _ hx => lowestComb_scalar v21 xs (notThree (.inr hx)) (fun x hx' => (hx x hx').weak)) h

theorem sumStep_weak (ph : Option Int) (cd pd : Rat) {acc x : IP} (hd1 : acc.disCur = .all 0) (hd2 : acc.disPow = .all 0) (hs1 : acc.setCur = .all noSetpoint)
    (hs2 : acc.setPow = .all noSetpoint) : Weak (sumStep false ph cd pd acc x) := by
  refine ⟨⟨rfl, rfl⟩, ⟨rfl, rfl⟩, ?_, ?_, ?_, ?_⟩
  · exact ⟨.inr (by show acc.disCur.l2 = 0; rw [hd1]; rfl), .inr (by show acc.disCur.l3 = 0; rw [hd1]; rfl)⟩
  · exact ⟨.inr (by show acc.disPow.l2 = 0; rw [hd2]; rfl), .inr (by show acc.disPow.l3 = 0; rw [hd2]; rfl)⟩
  · show acc.setCur.l2 = _ ∧ acc.setCur.l3 = _; rw [hs1]; exact ⟨rfl, rfl⟩
  · show acc.setPow.l2 = _ ∧ acc.setPow.l3 = _; rw [hs2]; exact ⟨rfl, rfl⟩

theorem sumFold_weak (ph : Option Int) (cd pd : Rat) : ∀ (xs : List IP) (acc : IP), acc.disCur = .all 0 → acc.disPow = .all 0 → acc.setCur = .all noSetpoint →
    acc.setPow = .all noSetpoint → (xs ≠ [] ∨ Weak acc) → Weak (xs.foldl (sumStep false ph cd pd) acc)
  | [], acc, _, _, _, _, h => h.resolve_left (by simp)
  | x :: xs, acc, h1, h2, h3, h4, _ => sumFold_weak ph cd pd xs _ h1 h2 h3 h4 (.inr (sumStep_weak ph cd pd h1 h2 h3 h4))

theorem sumComb_weak (cd pd : Rat) (xs : List IP) (hne : xs ≠ []) : Weak (sumComb false cd pd xs) := by
  unfold sumComb
  simp only [Bool.false_and]
  exact sumFold_weak _ cd pd xs _ rfl rfl rfl rfl (.inl hne)

theorem convert_none (unit : RUnit) (dl : Rat) (dp : Int) (v : Rat) {x : IP} (h : Scalar x) : (convert unit dl dp v x).NoPhaseValues := by
  obtain ⟨⟨a1, a2⟩, ⟨b1, b2⟩, ⟨c1, c2⟩, ⟨d1, d2⟩, ⟨e1, e2⟩, ⟨f1, f2⟩⟩ := h
  cases unit <;> simp [Out.NoPhaseValues, convert, both, store, transform, a1, a2, b1, b2, c1, c2, d1, d2, e1, e2, f1, f2]

/-- **C53, proved part.** If no profile says anything about single phases, neither does the composite schedule of an EVSE, in OCPP 2.0.1 and 2.1, nor, in OCPP 2.0.1, that of the
station.

Missing: the values of profiles that have some, and the station in OCPP 2.1; there the property fails (`C53_phase_limits_violated`, `C53_station_violated`). -/
theorem C53_none_partial (sort : Sorter) (hsort : SortsByStack sort) (cfg : Config) (s : Station) (evse : Nat) (unit : RUnit) (now stop : Int) (simulate : Bool)
    (hp : ∀ p ∈ s.profiles, p.NoPhaseValues) (he : ∀ e ∈ s.evses, ∀ p ∈ e.profiles, p.NoPhaseValues) (h : evse ≠ 0 ∨ cfg.v21 = false) :
    ∀ x ∈ composite sort cfg s evse unit now stop simulate, x.val.NoPhaseValues := by
  have key : ∀ (dl : Rat) (l : List (Step IP)), AllVal Scalar l → ∀ x ∈ convertAll unit dl cfg.phases cfg.voltage l, x.val.NoPhaseValues := by
    intro dl l hl x hx
    obtain ⟨y, hy, rfl⟩ := List.mem_map.1 (dedup_mem _ none x hx)
    exact convert_none unit _ _ _ (hl y hy)
  unfold composite
  dsimp only
  apply key
  split
  · next h0 =>
    have hv : cfg.v21 = false := h.resolve_left (by simp [h0])
    unfold stationLimits
    dsimp only
    rw [hv]
    refine combine_all Weak Scalar gapIP gap_scalar _ (fun xs _ hx => lowestComb_scalar false xs rfl hx) ?_
    intro l hl
    simp only [List.mem_cons, List.not_mem_nil, or_false] at hl
    rcases hl with rfl | rfl
    · exact combine_all (fun _ => True) Weak gapIP gap_scalar.weak _ (fun xs hne _ => sumComb_weak _ _ xs hne) (fun _ _ _ _ => trivial)
    · intro y hy
      exact (gen_scalar sort hsort hp _ _ _ _ y hy).weak
  · split
    · next e hei =>
      unfold evseLimits
      apply mergeLowest_scalar
      intro l hl
      rcases List.mem_append.1 hl with hl | hl
      · exact intermediates_scalar sort hsort (he e (List.mem_of_getElem? hei)) hp _ _ _ _ l hl
      · rw [List.mem_singleton.1 hl]
        exact gen_scalar sort hsort hp _ _ _ _
    · intro y hy; cases hy

/-- The hypotheses of C53 are met by the station of the other examples, which has schedules for both. -/
example : (∀ p ∈ exStation.profiles, p.NoPhaseValues) ∧ (∀ e ∈ exStation.evses, ∀ p ∈ e.profiles, p.NoPhaseValues) ∧
    (composite sortByStack {} exStation 1 .A 0 6000 false).length > 2 ∧ (composite sortByStack {} exStation 0 .A 0 6000 false).length > 2 := by
  unfold Profile.NoPhaseValues
  refine ⟨by decide, by decide, by decide +kernel, by decide +kernel⟩

end Verif.SC2

namespace Verif.SC16
open Verif.SC

/-- The length of one recurrence of a profile. -/
def Profile.recurrence (p : Profile) : Int := match p.recur with | some .weekly => 604800 | _ => 86400

theorem early_not_in_force {p : Profile} {ss t : Int} {session : Option Int} {now : Int} (hk : p.kind = .recurring) (hs : p.startSchedule = some ss) (ht : t < ss)
    (hc : (∃ v, p.validFrom = some v ∧ ss ≤ v) ∨ (∃ d, p.duration = some d ∧ d ≤ (t - ss) % p.recurrence)) : p.inForce session now t = none := by
  unfold Profile.inForce
  split
  · rfl
  · next s he =>
    rw [if_neg]
    rintro ⟨_, h2, _, h4, _⟩
    rcases hc with ⟨v, hv, hvs⟩ | ⟨d, hd, hle⟩
    · simp only [hv, Option.getD_some] at h4; omega
    · simp only [hd, Option.getD_some] at h2
      simp only [Profile.startAt, hk, hs] at he
      unfold Profile.recurrence at hle
      cases hr : p.recur with
      | none => rw [hr] at he; cases he
      | some r => cases r <;> rw [hr] at he hle <;> simp only [Option.some.injEq] at he <;> dsimp only at hle <;> omega

theorem decides_without {S : Profile → Prop} {session : Option Int} {now t : Int} {r : Option (Profile × Period)} {p : Profile} (hp : p.inForce session now t = none)
    (h : Decides S session now t r) : Decides (fun q => S q ∧ q ≠ p) session now t r := by
  rcases r with _ | ⟨q, per⟩
  · exact fun q hq => h q hq.1
  · refine ⟨⟨h.1, ?_⟩, h.2.1, fun x hx => h.2.2 x hx.1⟩
    rintro rfl
    have := h.2.1
    rw [hp] at this; cases this

/-- **C50, proved part.** A recurring profile has no effect at an instant before its `startSchedule` if its validity does not begin before its `startSchedule`, or if it has a
duration and the instant is not in a recurrence extended backwards: what the schedule says is decided by the other profiles.

Missing: the other instants before `startSchedule`, where the code applies the profile (`C50_violated`). -/
theorem C50_partial (sort : Sorter) (hsort : SortsByStack sort) (now stop : Int) (session : Option Int) (ps : List Profile) (purpose : Purpose)
    (hps : ∀ p ∈ ps, p.purpose = purpose → p.Ordered) (hw : stop - now ≤ intMax) (p : Profile) (ss t : Int) (h1 : now ≤ t) (h2 : t < stop)
    (hk : p.kind = .recurring) (hs : p.startSchedule = some ss) (ht : t < ss)
    (hc : (∃ v, p.validFrom = some v ∧ ss ≤ v) ∨ (∃ d, p.duration = some d ∧ d ≤ (t - ss) % p.recurrence)) :
    ∃ r x, Decides (fun q => (q ∈ ps ∧ q.purpose = purpose) ∧ q ≠ p) session now t r ∧
      valueAt (generate sort (allEntries now stop session ps purpose) now stop gapIP) (t - now) = some x ∧
      match r with
      | none => x = gapIP
      | some (q, per) => x = content q per := by
  obtain ⟨r, hr, hv⟩ := generate_decides sort hsort now stop session ps purpose hps hw t h1 h2
  refine ⟨r, toIP r, decides_without (early_not_in_force hk hs ht hc) hr, hv, ?_⟩
  rcases r with _ | ⟨q, per⟩ <;> rfl

/-- A daily profile that starts at 90000 for two hours: it has no effect at 80000, although its stack level is the highest, and decides at 91000. -/
example : (2 * 3600 : Int) ≤ (80000 - 90000) % ({ exDaily with startSchedule := some 90000 } : Profile).recurrence ∧ exDaily.duration = some 7200 ∧
    (valueAt (generate sortByStack (allEntries 80000 100000 none [exLow, { exDaily with startSchedule := some 90000 }] .txDefault) 80000 100000 gapIP) 0).map (·.cur) = some 6 ∧
    (valueAt (generate sortByStack (allEntries 80000 100000 none [exLow, { exDaily with startSchedule := some 90000 }] .txDefault) 80000 100000 gapIP) 11000).map (·.cur) = some 32 := by
  decide +kernel

end Verif.SC16

namespace Verif.SC2
open Verif.SC

/-- The length of one recurrence of a profile. -/
def Profile.recurrence (p : Profile) : Int := match p.recur with | some .weekly => 604800 | _ => 86400

theorem early_not_in_force {p : Profile} {ss t : Int} {session : Option Int} {now : Int} (hk : p.kind = .recurring) (hs : p.startSchedule = some ss) (ht : t < ss)
    (hc : (∃ v, p.validFrom = some v ∧ ss ≤ v) ∨ (∃ d, p.duration = some d ∧ d ≤ (t - ss) % p.recurrence)) : p.inForce session now t = none := by
  unfold Profile.inForce
  split
  · rfl
  · next s he =>
    rw [if_neg]
    rintro ⟨_, h2, _, h4, _⟩
    rcases hc with ⟨v, hv, hvs⟩ | ⟨d, hd, hle⟩
    · simp only [hv, Option.getD_some] at h4; omega
    · simp only [hd, Option.getD_some] at h2
      simp only [Profile.startAt, hk, hs] at he
      unfold Profile.recurrence at hle
      cases hr : p.recur with
      | none => rw [hr] at he; cases he
      | some r => cases r <;> rw [hr] at he hle <;> simp only [Option.some.injEq] at he <;> dsimp only at hle <;> omega

theorem decides_without {S : Profile → Prop} {session : Option Int} {now t : Int} {r : Option (Profile × Period)} {p : Profile} (hp : p.inForce session now t = none)
    (h : Decides S session now t r) : Decides (fun q => S q ∧ q ≠ p) session now t r := by
  rcases r with _ | ⟨q, per⟩
  · exact fun q hq => h q hq.1
  · refine ⟨⟨h.1, ?_⟩, h.2.1, fun x hx => h.2.2 x hx.1⟩
    rintro rfl
    have := h.2.1
    rw [hp] at this; cases this

/-- **C50 (OCPP 2.x), proved part.** A recurring profile has no effect at an instant before its `startSchedule` if its validity does not begin before its `startSchedule`, or if it has a
duration and the instant is not in a recurrence extended backwards: what the schedule says is decided by the other profiles.

Missing: the other instants before `startSchedule`, where the code applies the profile (`C50_violated`). -/
theorem C50_v2_partial (sort : Sorter) (hsort : SortsByStack sort) (now stop : Int) (session : Option Int) (ps : List Profile) (purpose : Purpose)
    (hps : ∀ p ∈ ps, p.purpose = purpose → p.Ordered) (hw : stop - now ≤ intMax) (p : Profile) (ss t : Int) (h1 : now ≤ t) (h2 : t < stop)
    (hk : p.kind = .recurring) (hs : p.startSchedule = some ss) (ht : t < ss)
    (hc : (∃ v, p.validFrom = some v ∧ ss ≤ v) ∨ (∃ d, p.duration = some d ∧ d ≤ (t - ss) % p.recurrence)) :
    ∃ r x, Decides (fun q => (q ∈ ps ∧ q.purpose = purpose) ∧ q ≠ p) session now t r ∧
      valueAt (generate sort (allEntries now stop session ps purpose) now stop gapIP) (t - now) = some x ∧
      match r with
      | none => x = gapIP
      | some (q, per) => x = content q per := by
  obtain ⟨r, hr, hv⟩ := generate_decides sort hsort now stop session ps purpose hps hw t h1 h2
  refine ⟨r, toIP r, decides_without (early_not_in_force hk hs ht hc) hr, hv, ?_⟩
  rcases r with _ | ⟨q, per⟩ <;> rfl

/-- A daily profile that starts at 90000 for two hours: it has no effect at 80000 and decides at 91000. -/
example : (7200 : Int) ≤ (80000 - 90000) % ({ exDaily with startSchedule := some 90000 } : Profile).recurrence ∧ exDaily.duration = some 7200 ∧
    (valueAt (generate sortByStack (allEntries 80000 100000 none [{ exDaily with startSchedule := some 90000 }] .txDefault) 80000 100000 gapIP) 0) = some gapIP ∧
    (valueAt (generate sortByStack (allEntries 80000 100000 none [{ exDaily with startSchedule := some 90000 }] .txDefault) 80000 100000 gapIP) 11000).map (·.cur.l1) = some 32 := by
  decide +kernel

/-- **C50 (OCPP 2.x, violated).** As in OCPP 1.6: without a duration a recurring profile that starts at 1000 limits the schedule at instant 100. -/
theorem C50_v2_violated : ∃ (p : Profile) (ss t : Int), p.Ordered ∧ p.kind = .recurring ∧ p.startSchedule = some ss ∧ t < ss ∧
    ∃ x, valueAt (generate sortByStack (allEntries 0 1000 none [p] .txDefault) 0 1000 gapIP) t = some x ∧ x.cur.l1 = 16 :=
  ⟨{ exDaily with duration := none }, 1000, 100, ⟨⟨_, _, rfl, rfl⟩, by decide, by decide⟩, rfl, rfl, by decide,
    content exDaily { start := 3600, limit := some 16, phases := some 3 }, by decide +kernel, by decide⟩

end Verif.SC2
