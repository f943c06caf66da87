import Verif.CompReq.Model
import Verif.ProfileStore.Theorems
import Verif.SmartCharging.V16Theorems
import Verif.Display.Theorems

/-! # Properties C221–C223: requests for composite schedules, purposes ignored while offline -/

set_option linter.unusedSimpArgs false

namespace Verif.CompReq
open Verif.SC16 (RUnit)
open Verif.DM (Str splitString splitLoop Piece mem_split)
open Verif.Display (trim trim_eq Names IsName)
open Verif.SC (Step intMax valueAt)

/-! ## What a list of names says -/

def unitText : RUnit → Str
  | .A => "A".toList
  | .W => "W".toList

def purposeText : PS.Purpose → Str
  | .external => "ChargingStationExternalConstraints".toList
  | .stationMax => "ChargingStationMaxProfile".toList
  | .txDefault => "TxDefaultProfile".toList
  | .tx => "TxProfile".toList
  | .priority => "PriorityCharging".toList
  | .localGeneration => "LocalGeneration".toList

def purposeText16 : SC16.Purpose → Str
  | .chargePointMax => "ChargePointMaxProfile".toList
  | .txDefault => "TxDefaultProfile".toList
  | .tx => "TxProfile".toList

/-- Nothing but names of units is between the commas; spaces around them do not matter. -/
def OnlyUnits (units : Str) : Prop :=
  ∀ x, Piece x units → ∃ u n m, x = List.replicate n ' ' ++ unitText u ++ List.replicate m ' '

/-- The text begins with the name of the unit `u`. -/
def First (units : Str) (u : RUnit) : Prop :=
  ∃ n m rest, units = List.replicate n ' ' ++ unitText u ++ List.replicate m ' ' ++ rest ∧ (rest = [] ∨ ∃ q, rest = ',' :: q)

/-- The unit a schedule is to be given in: the one that is asked for, if the station has it, and the first one of the station if none is
asked for. -/
def UnitFor (units : Str) (asked : Option RUnit) (u : RUnit) : Prop :=
  match asked with
  | some v => u = v ∧ Names units (unitText v)
  | none => First units u

/-- The station is offline, and the purpose is one of those to be ignored then. -/
def Ignored (w : World) (u : PS.Purpose) : Prop := w.connected = false ∧ ∃ l, w.vars.ignored = some l ∧ Piece (purposeText u) l

def Ignored16 (s : Station) (u : SC16.Purpose) : Prop := s.connected = false ∧ ∃ l, s.ignored = some l ∧ Piece (purposeText16 u) l

/-- A profile of the EVSE is used: it is one of its valid profiles and its purpose is not ignored. -/
def Used (w : World) (evse : Int) (q : SC2.Profile) : Prop :=
  ∃ p ∈ PS.validProfiles w.store [] evse, ¬ Ignored w p.purpose ∧ q = p.toSC2

/-- The configured limits, number of phases and voltage, or the defaults. -/
def settings (w : World) : SC2.Config where
  v21 := w.store.env.v21
  currentLimit := match w.vars.amps with | some x => x | none => 48
  powerLimit := match w.vars.watts with | some x => x | none => 33120
  phases := match w.vars.phases with | some x => x | none => 3
  voltage := match w.vars.voltage with | some x => x | none => 230

/-! ## Lemmas -/

theorem isName_unit (u : RUnit) : IsName (unitText u) := by
  cases u
  · exact ⟨⟨'A', [], rfl, by decide⟩, 'A', [], rfl, by decide⟩
  · exact ⟨⟨'W', [], rfl, by decide⟩, 'W', [], rfl, by decide⟩

theorem unitOf_text (u : RUnit) : unitOf (unitText u) = some u := by cases u <;> decide

theorem unitOf_eq {s : Str} {u : RUnit} (h : unitOf s = some u) : s = unitText u := by
  unfold unitOf at h
  split at h
  · rename_i hs; injection h with h; subst h; exact hs
  · split at h
    · rename_i hs; injection h with h; subst h; exact hs
    · cases h

theorem purposeOf_iff (s : Str) (u : PS.Purpose) : purposeOf s = some u ↔ s = purposeText u := by
  constructor
  · intro h
    unfold purposeOf at h
    repeat' split at h
    all_goals first
      | (rename_i hs; injection h with h; subst h; exact hs)
      | cases h
  · rintro rfl; cases u <;> decide

theorem purposeOf16_iff (s : Str) (u : SC16.Purpose) : purposeOf16 s = some u ↔ s = purposeText16 u := by
  constructor
  · intro h
    unfold purposeOf16 at h
    repeat' split at h
    all_goals first
      | (rename_i hs; injection h with h; subst h; exact hs)
      | cases h
  · rintro rfl; cases u <;> decide

theorem supported_ok (l : List Str) (u : RUnit) (h : ∀ x ∈ l, ∃ v, x = unitText v) :
    (unitText u ∈ l → supported u l = some true) ∧ (unitText u ∉ l → supported u l = some false) := by
  induction l with
  | nil => exact ⟨(fun h => by cases h), fun _ => rfl⟩
  | cons x r ih =>
    obtain ⟨v, rfl⟩ := h x (by simp)
    have ih := ih (fun y hy => h y (by simp [hy]))
    rw [show supported u (unitText v :: r) = (match unitOf (unitText v) with
      | none => none
      | some v => if v = u then some true else supported u r) from rfl, unitOf_text]
    by_cases hv : v = u
    · subst hv
      simp
    · have hne : unitText u ≠ unitText v := by
        intro e
        have := congrArg unitOf e
        rw [unitOf_text, unitOf_text] at this
        injection this with this
        exact hv this.symm
      simp only [hv, if_false, List.mem_cons, hne, false_or]
      exact ih

theorem split_first (s : Str) : ∀ cur x r, splitLoop cur s = x :: r →
    ∃ rest, cur.reverse ++ s = x ++ rest ∧ (rest = [] ∨ ∃ q, rest = ',' :: q) := by
  induction s with
  | nil =>
    intro cur x r h
    rw [splitLoop] at h
    split at h
    · cases h
    · injection h with h _
      exact ⟨[], by simp [← h], .inl rfl⟩
  | cons c s ih =>
    intro cur x r h
    rw [splitLoop] at h
    split at h
    · rename_i hc
      injection h with h _
      exact ⟨',' :: s, by rw [← h, hc], .inr ⟨s, rfl⟩⟩
    · obtain ⟨rest, h1, h2⟩ := ih _ _ _ h
      exact ⟨rest, by rw [← h1]; simp, h2⟩

theorem split_prefix (s : Str) : ∀ cur rest, ',' ∉ s → (cur ≠ [] ∨ s ≠ []) → (rest = [] ∨ ∃ q, rest = ',' :: q) →
    ∃ r, splitLoop cur (s ++ rest) = (cur.reverse ++ s) :: r := by
  induction s with
  | nil =>
    intro cur rest _ hne hr
    have hne : cur ≠ [] := by simpa using hne
    rcases hr with rfl | ⟨q, rfl⟩
    · exact ⟨[], by simp [splitLoop, hne]⟩
    · exact ⟨splitLoop [] q, by simp [splitLoop]⟩
  | cons c s ih =>
    intro cur rest hs _ hr
    have hc : c ≠ ',' := fun e => hs (by simp [e])
    obtain ⟨r, h⟩ := ih (c :: cur) rest (fun m => hs (by simp [m])) (.inl (by simp)) hr
    refine ⟨r, ?_⟩
    rw [List.cons_append, splitLoop, if_neg hc, h]
    simp

/-- The list of units after splitting and trimming. -/
theorem units_known {units : Str} (hk : OnlyUnits units) : ∀ x ∈ (splitString units).map trim, ∃ v, x = unitText v := by
  intro x hx
  obtain ⟨p, hp, rfl⟩ := List.mem_map.1 hx
  obtain ⟨u, n, m, rfl⟩ := hk p ((mem_split _ _).1 hp)
  exact ⟨u, (trim_eq (isName_unit u)).2 ⟨n, m, rfl⟩⟩

theorem mem_units (units : Str) (u : RUnit) : unitText u ∈ (splitString units).map trim ↔ Names units (unitText u) := by
  rw [← Display.listed_iff (isName_unit u)]
  unfold Display.listed
  rw [List.contains_iff_mem]

theorem first_iff (units : Str) (u : RUnit) : First units u ↔ ∃ x r, splitString units = x :: r ∧ trim x = unitText u := by
  constructor
  · rintro ⟨n, m, rest, rfl, hr⟩
    have hc : ',' ∉ List.replicate n ' ' ++ unitText u ++ List.replicate m ' ' := by
      simp only [List.mem_append, List.mem_replicate, not_or]
      refine ⟨⟨fun h => absurd h.2 (by decide), by cases u <;> decide⟩, fun h => absurd h.2 (by decide)⟩
    obtain ⟨r, h⟩ := split_prefix (List.replicate n ' ' ++ unitText u ++ List.replicate m ' ') [] rest hc
      (.inr (by cases u <;> simp [unitText])) hr
    exact ⟨_, r, h, (trim_eq (isName_unit u)).2 ⟨n, m, rfl⟩⟩
  · rintro ⟨x, r, h, ht⟩
    obtain ⟨rest, h1, h2⟩ := split_first units [] x r h
    obtain ⟨n, m, rfl⟩ := (trim_eq (isName_unit u)).1 ht
    exact ⟨n, m, rest, by simpa using h1, h2⟩

/-- The unit that is chosen. -/
theorem chooseUnit_spec {units : Str} (hk : OnlyUnits units) (asked : Option RUnit) :
    (∀ u, UnitFor units asked u → chooseUnit units asked = some (some u)) ∧
    ((∀ u, ¬ UnitFor units asked u) → chooseUnit units asked = some none) := by
  have hu := units_known hk
  cases asked with
  | some v =>
    have hs := supported_ok _ v hu
    rw [mem_units] at hs
    constructor
    · rintro u ⟨rfl, h⟩
      simp only [chooseUnit, hs.1 h, Option.map_some, if_true]
    · intro h
      have := hs.2 (fun hn => h v ⟨rfl, hn⟩)
      simp [chooseUnit, this]
  | none =>
    constructor
    · intro u h
      obtain ⟨x, r, hx, ht⟩ := (first_iff units u).1 h
      simp only [chooseUnit, hx, List.map_cons, ht, unitOf_text, Option.map_some]
    · intro h
      cases hx : splitString units with
      | nil => simp only [chooseUnit, hx, List.map_nil]
      | cons x r =>
        obtain ⟨v, hv⟩ := hu (trim x) (by rw [hx]; simp)
        exact absurd ((first_iff units v).2 ⟨x, r, hx, hv⟩) (h v)

theorem mem_ignored (w : World) (u : PS.Purpose) : u ∈ ignored w ↔ Ignored w u := by
  unfold ignored purposesToIgnore Ignored
  cases hc : w.connected with
  | true => simp
  | false =>
    cases hl : w.vars.ignored with
    | none => simp
    | some l =>
      simp only [Bool.not_false, Bool.not_true, Bool.false_or, Option.getD_some, true_and, Option.some.injEq]
      have key : u ∈ purposesOf l ↔ Piece (purposeText u) l := by
        unfold purposesOf
        rw [List.mem_filterMap, ← mem_split]
        constructor
        · rintro ⟨x, hx, h⟩; rw [(purposeOf_iff _ _).1 h] at hx; exact hx
        · intro h; exact ⟨_, h, (purposeOf_iff _ _).2 rfl⟩
      cases l with
      | nil =>
        simp only [List.isEmpty_nil, if_true, List.not_mem_nil, false_iff]
        rintro ⟨x, rfl, h⟩
        have := (mem_split _ _).2 h
        simp [splitString, splitLoop] at this
      | cons c r =>
        simp only [List.isEmpty_cons, Bool.false_eq_true, if_false, key]
        exact ⟨fun h => ⟨_, rfl, h⟩, fun ⟨x, h1, h2⟩ => h1 ▸ h2⟩

theorem mem_valid (w : World) (evse : Int) (p : PS.Profile) :
    p ∈ PS.validProfiles w.store (ignored w) evse ↔ p ∈ PS.validProfiles w.store [] evse ∧ ¬ Ignored w p.purpose := by
  unfold PS.validProfiles
  simp only [List.mem_filterMap]
  constructor
  · rintro ⟨q, hq, h⟩
    split at h
    · rename_i hh
      injection h with h
      subst h
      refine ⟨⟨q, hq, by simp [hh.1]⟩, ?_⟩
      rw [(PS.conform_fields _ _).2.2.1, ← mem_ignored]
      simpa using hh.2
    · cases h
  · rintro ⟨⟨q, hq, h⟩, hi⟩
    refine ⟨q, hq, ?_⟩
    split at h
    · rename_i hh
      injection h with h
      subst h
      rw [(PS.conform_fields _ _).2.2.1, ← mem_ignored] at hi
      have : (ignored w).contains q.purpose = false := by
        cases hb : (ignored w).contains q.purpose with
        | false => rfl
        | true => exact absurd (List.contains_iff_mem.1 hb) hi
      simp only [hh.1, this, Bool.false_eq_true, not_false_eq_true, and_self, if_true]
    · cases h

theorem mem_used (w : World) (evse : Int) (q : SC2.Profile) :
    q ∈ (PS.validProfiles w.store (ignored w) evse).map PS.Profile.toSC2 ↔ Used w evse q := by
  rw [List.mem_map]
  unfold Used
  constructor
  · rintro ⟨p, hp, rfl⟩
    obtain ⟨h1, h2⟩ := (mem_valid w evse p).1 hp
    exact ⟨p, h1, h2, rfl⟩
  · rintro ⟨p, hp, h2, rfl⟩
    exact ⟨p, (mem_valid w evse p).2 ⟨hp, h2⟩, rfl⟩

theorem config_eq (w : World) : config w = settings w := by
  unfold config settings
  cases w.vars.amps <;> cases w.vars.watts <;> cases w.vars.phases <;> cases w.vars.voltage <;> simp

theorem internal_accepted {sort : SC2.Sorter} {w : World} {now evse duration : Int} {asked : Option RUnit} {simulate : Bool}
    (hk : OnlyUnits w.vars.units) {u : RUnit} (hu : UnitFor w.vars.units asked u) (he : 0 ≤ evse ∧ evse ≤ w.store.env.evses.length) :
    internal sort w now evse duration asked simulate = .accepted (calculate sort w evse u now (now + duration) simulate) := by
  unfold internal
  rw [(chooseUnit_spec hk asked).1 u hu]
  simp [evseExists, he]

theorem duration_eq (now duration : Int) (hd : duration ≤ intMax) :
    (if now + duration - now ≤ intMax then now + duration - now else intMax) = duration := by
  rw [show now + duration - now = duration by omega, if_pos hd]

/-! ## C221 -/

/-- **C221 (2.x).** GetCompositeSchedule.req is accepted if and only if the EVSE exists (0 is the whole station) and the station has a unit
for the answer: the one that is asked for, or the first of its list. The schedule is one of that EVSE, from now on, for the requested
duration, in that unit. Otherwise the answer names the reason. -/
theorem C221_answer (sort : SC2.Sorter) (w : World) (hk : OnlyUnits w.vars.units) (now evse duration : Int) (asked : Option RUnit)
    (hd : duration ≤ intMax) :
    (∀ u, UnitFor w.vars.units asked u → 0 ≤ evse → evse ≤ w.store.env.evses.length →
      ∃ s, request sort w now evse duration asked = .accepted s ∧ s.evse = evse ∧ s.start = now ∧ s.duration = duration ∧ s.unit = u) ∧
    (∀ u, UnitFor w.vars.units asked u → (evse < 0 ∨ (w.store.env.evses.length : Int) < evse) →
      request sort w now evse duration asked = .rejected "InvalidValue" "EvseDoesNotExist") ∧
    ((∀ u, ¬ UnitFor w.vars.units asked u) →
      request sort w now evse duration asked = .rejected "UnsupportedRateUnit" "ChargingScheduleChargingRateUnitUnsupported") := by
  refine ⟨?_, ?_, ?_⟩
  · intro u hu h0 h1
    refine ⟨_, internal_accepted hk hu ⟨h0, h1⟩, rfl, rfl, ?_, rfl⟩
    exact duration_eq now duration hd
  · intro u hu he
    have : evseExists w evse = false := by unfold evseExists; rw [decide_eq_false_iff_not]; omega
    unfold request internal
    rw [(chooseUnit_spec hk asked).1 u hu]
    simp [this]
  · intro h
    unfold request internal
    rw [(chooseUnit_spec hk asked).2 h]

/-- What is said about an accepted schedule of one EVSE: at every instant of the window the limit is the lowest of the limits in force. -/
theorem limit_at (sort : SC2.Sorter) (hsort : SC.SortsByStack sort) (w : World) (hr : PS.Reachable w.store)
    (hp : ∀ evse, ∀ p ∈ PS.validProfiles w.store [] evse, PS.Physical p) (hc : (settings w).Physical) (evse : Int) (h0 : 0 < evse)
    (h1 : evse ≤ w.store.env.evses.length) (u : RUnit) (now stop : Int) (simulate : Bool) (hw : stop - now ≤ intMax) (t : Int)
    (ht : now ≤ t) (ht' : t < stop) :
    ∃ ext tx max o,
      SC2.Decides (fun q => (Used w evse q ∨ Used w 0 q) ∧ q.purpose = .external) (w.session evse.toNat) now t ext ∧
      (if w.session evse.toNat ≠ none ∨ simulate = true then
        ∃ a b, SC2.Decides (fun q => (Used w evse q ∨ Used w 0 q) ∧ q.purpose = .tx) (w.session evse.toNat) now t a ∧
          SC2.Decides (fun q => (Used w evse q ∨ Used w 0 q) ∧ q.purpose = .txDefault) (w.session evse.toNat) now t b ∧
          tx = (a.toList ++ b.toList).find? SC2.specifies
      else tx = none) ∧
      SC2.Decides (fun q => Used w 0 q ∧ q.purpose = .stationMax) (w.session evse.toNat) now t max ∧
      valueAt (calculate sort w evse u now stop simulate).periods (t - now) = some o ∧
      SC2.Applies (settings w) u ((ext.toList ++ tx.toList ++ max.toList).map SC2.constraintOf) o := by
  obtain ⟨k, hk⟩ : ∃ k : Nat, evse = (k : Int) + 1 := ⟨(evse - 1).toNat, by omega⟩
  have hkn : k < w.store.env.evses.length := by omega
  have hto : evse.toNat = k + 1 := by omega
  have hsane := PS.C19_reachable_sane w.store hr (ignored w) w.session (fun e p hm => hp e p ((mem_valid w e p).1 hm).1)
  have hg : (PS.stationOf w.store (ignored w) w.session).evses[evse.toNat - 1]? =
      some ⟨w.session (k + 1), (PS.validProfiles w.store (ignored w) ((k : Int) + 1)).map PS.Profile.toSC2⟩ := by
    rw [hto]
    simp [PS.stationOf, List.getElem?_map, List.getElem?_range hkn]
  obtain ⟨ext, tx, mx, o, d1, d2, d3, hv, ha, _⟩ := SC2.C19_evse sort hsort (config w) (config_eq w ▸ hc) _ hsane evse.toNat (by omega) _ hg u
    now stop simulate hw t ht ht'
  have cnt : ∀ v, SC2.Counts (PS.stationOf w.store (ignored w) w.session)
      ⟨w.session (k + 1), (PS.validProfiles w.store (ignored w) ((k : Int) + 1)).map PS.Profile.toSC2⟩ v =
      fun q => (Used w evse q ∨ Used w 0 q) ∧ q.purpose = v := by
    intro v
    funext q
    unfold SC2.Counts
    rw [List.mem_append, show (PS.stationOf w.store (ignored w) w.session).profiles = (PS.validProfiles w.store (ignored w) 0).map PS.Profile.toSC2 from rfl,
      mem_used, mem_used, hk]
  have stm : SC2.StationMax (PS.stationOf w.store (ignored w) w.session) = fun q => Used w 0 q ∧ q.purpose = .stationMax := by
    funext q
    unfold SC2.StationMax
    rw [show (PS.stationOf w.store (ignored w) w.session).profiles = (PS.validProfiles w.store (ignored w) 0).map PS.Profile.toSC2 from rfl, mem_used]
  unfold SC2.TxDecides at d2
  rw [cnt] at d1
  rw [cnt, cnt] at d2
  rw [stm] at d3
  rw [config_eq] at ha
  rw [hto]
  exact ⟨ext, tx, mx, o, d1, d2, d3, hv, ha⟩

/-- **C221 (2.x, contents).** The schedule in an accepted answer for an EVSE: at every instant the limit is the lowest one of the external
constraint, of the TxProfile in force or else the TxDefaultProfile, and of the ChargingStationMaxProfile in force, converted to the unit of
the answer; the configured default if there is none. The profiles are the valid stored ones of the EVSE and of the whole station, except
those whose purpose is ignored while offline. Also without transaction the profiles for transactions count. -/
theorem C221_contents (sort : SC2.Sorter) (hsort : SC.SortsByStack sort) (w : World) (hr : PS.Reachable w.store)
    (hp : ∀ evse, ∀ p ∈ PS.validProfiles w.store [] evse, PS.Physical p) (hc : (settings w).Physical) (hk : OnlyUnits w.vars.units)
    (evse : Int) (h0 : 0 < evse) (h1 : evse ≤ w.store.env.evses.length) (asked : Option RUnit) (u : RUnit)
    (hu : UnitFor w.vars.units asked u) (now duration : Int) (hd : duration ≤ intMax) :
    ∃ s, request sort w now evse duration asked = .accepted s ∧ ∀ t, now ≤ t → t < now + duration →
      ∃ ext tx txd max o,
        SC2.Decides (fun q => (Used w evse q ∨ Used w 0 q) ∧ q.purpose = .external) (w.session evse.toNat) now t ext ∧
        SC2.Decides (fun q => (Used w evse q ∨ Used w 0 q) ∧ q.purpose = .tx) (w.session evse.toNat) now t tx ∧
        SC2.Decides (fun q => (Used w evse q ∨ Used w 0 q) ∧ q.purpose = .txDefault) (w.session evse.toNat) now t txd ∧
        SC2.Decides (fun q => Used w 0 q ∧ q.purpose = .stationMax) (w.session evse.toNat) now t max ∧
        valueAt s.periods (t - now) = some o ∧
        SC2.Applies (settings w) u
          ((ext.toList ++ ((tx.toList ++ txd.toList).find? SC2.specifies).toList ++ max.toList).map SC2.constraintOf) o := by
  refine ⟨_, internal_accepted hk hu ⟨by omega, h1⟩, ?_⟩
  intro t ht ht'
  obtain ⟨ext, tx, mx, o, d1, d2, d3, hv, ha⟩ := limit_at sort hsort w hr hp hc evse h0 h1 u now (now + duration) true (by omega) t ht ht'
  rw [if_pos (.inr rfl)] at d2
  obtain ⟨a, b, d2, d2', rfl⟩ := d2
  exact ⟨ext, a, b, mx, o, d1, d2, d2', d3, hv, ha⟩

theorem foldl_accepted (l : List Answer) (ss : List Schedule) (h : l = ss.map Answer.accepted) (acc : List Schedule) :
    l.foldl addSchedule (some acc) = some (acc ++ ss) := by
  subst h
  induction ss generalizing acc with
  | nil => simp
  | cons s ss ih =>
    rw [List.map_cons, List.foldl_cons, show addSchedule (some acc) (.accepted s) = some (acc ++ [s]) from rfl, ih]
    simp

theorem foldl_rejected (l : List Answer) (h : ∀ a ∈ l, ∃ c i, a = .rejected c i) (acc : List Schedule) :
    l.foldl addSchedule (some acc) = some acc := by
  induction l generalizing acc with
  | nil => rfl
  | cons a l ih =>
    obtain ⟨c, i, rfl⟩ := h a (by simp)
    rw [List.foldl_cons, show addSchedule (some acc) (.rejected c i) = some acc from rfl, ih (fun b hb => h b (by simp [hb]))]

/-- **C221 (2.x, all EVSEs).** The schedules of all EVSEs: one for the whole station and one for each EVSE, in that order, each of them the
one GetCompositeSchedule.req would be answered with; none if the station does not have the unit. -/
theorem C221_all (sort : SC2.Sorter) (w : World) (hk : OnlyUnits w.vars.units) (now duration : Int) (u : RUnit) :
    (Names w.vars.units (unitText u) → ∃ l, allSchedules sort w now duration u = some l ∧ l.length = w.store.env.evses.length + 1 ∧
      ∀ (k : Nat) (s : Schedule), l[k]? = some s → s.evse = k ∧ request sort w now k duration (some u) = .accepted s) ∧
    (¬ Names w.vars.units (unitText u) → allSchedules sort w now duration u = some []) := by
  constructor
  · intro hn
    have hu : UnitFor w.vars.units (some u) u := ⟨rfl, hn⟩
    refine ⟨(List.range (w.store.env.evses.length + 1)).map fun (k : Nat) => calculate sort w k u now (now + duration) true, ?_, by simp, ?_⟩
    · unfold allSchedules
      have := foldl_accepted ((List.range (w.store.env.evses.length + 1)).map fun (k : Nat) => request sort w now k duration (some u))
        ((List.range (w.store.env.evses.length + 1)).map fun (k : Nat) => calculate sort w k u now (now + duration) true) (by
          rw [List.map_map]
          apply List.map_congr_left
          intro k hk'
          rw [List.mem_range] at hk'
          exact internal_accepted hk hu ⟨by omega, by omega⟩) []
      rw [this]
      simp
    · intro k s hs
      rw [List.getElem?_map] at hs
      cases hx : (List.range (w.store.env.evses.length + 1))[k]? with
      | none => rw [hx] at hs; cases hs
      | some j =>
        rw [List.getElem?_eq_some_iff] at hx
        obtain ⟨hlt, hj⟩ := hx
        rw [List.getElem_range] at hj
        subst hj
        rw [List.length_range] at hlt
        rw [List.getElem?_range hlt] at hs
        injection hs with hs
        subst hs
        exact ⟨rfl, internal_accepted hk hu ⟨by omega, by omega⟩⟩
  · intro hn
    unfold allSchedules
    apply foldl_rejected
    intro a ha
    obtain ⟨k, _, rfl⟩ := List.mem_map.1 ha
    refine ⟨"UnsupportedRateUnit", "ChargingScheduleChargingRateUnitUnsupported", ?_⟩
    unfold request internal
    rw [(chooseUnit_spec hk (some u)).2 (fun v hv => hn hv.2)]

/-! ## C222 -/

/-- **C222 (2.x).** Whatever is stored: while the station is connected every valid profile is used, and while it is offline exactly those
are used whose purpose is not listed in IgnoredProfilePurposesOffline; the order stays the same. The composite schedules of all requests
are calculated from these profiles. -/
theorem C222_offline (sort : SC2.Sorter) (w : World) (now evse duration : Int) (asked : Option RUnit) (s : Schedule)
    (h : request sort w now evse duration asked = .accepted s) :
    ∃ used : Int → List PS.Profile,
      (∀ e, (used e).Sublist (PS.validProfiles w.store [] e) ∧
        ∀ p ∈ PS.validProfiles w.store [] e, (p ∈ used e ↔ ¬ Ignored w p.purpose)) ∧
      (w.connected = true → ∀ e, used e = PS.validProfiles w.store [] e) ∧
      s.periods = SC2.composite sort (settings w)
        { profiles := (used 0).map PS.Profile.toSC2
          evses := (List.range w.store.env.evses.length).map fun k => ⟨w.session (k + 1), (used ((k : Int) + 1)).map PS.Profile.toSC2⟩ }
        evse.toNat s.unit now (now + duration) true := by
  refine ⟨fun e => PS.validProfiles w.store (ignored w) e, ?_, ?_, ?_⟩
  · intro e
    constructor
    · show (PS.validProfiles w.store (ignored w) e).Sublist _
      unfold PS.validProfiles
      generalize (List.filter (fun r => decide (r.evse = e)) w.store.rows).map PS.Row.profile = l
      induction l with
      | nil => exact List.Sublist.slnil
      | cons p l ih =>
        rw [List.filterMap_cons, List.filterMap_cons]
        by_cases hv : PS.validate w.store.env w.store.rows e p .set = .valid
        · by_cases hi : (ignored w).contains p.purpose = true
          · simp only [hv, hi, not_true_eq_false, and_false, if_false]
            exact ih.trans (by simp)
          · simp only [hv, hi, not_false_eq_true, and_self, if_true, Bool.false_eq_true]
            simpa using ih
        · simp only [hv, false_and, if_false]
          exact ih
    · intro p hp
      rw [mem_valid]
      exact ⟨fun h => h.2, fun h => ⟨hp, h⟩⟩
  · intro hc e
    have : ignored w = [] := by simp [ignored, purposesToIgnore, hc]
    show PS.validProfiles w.store (ignored w) e = _
    rw [this]
  · unfold request internal at h
    split at h
    · cases h
    · split at h
      · injection h with h
        subst h
        show SC2.composite sort (config w) _ _ _ _ _ _ = _
        rw [config_eq]
        rfl
      · cases h
    · cases h

/-! ## C223 -/

/-- **C223.** The application asks for the schedule of an EVSE without transaction: profiles for transactions have no effect on it. The
limit is the lowest one of the external constraint and the ChargingStationMaxProfile in force, or the configured default. A duration that
is too long for 32 bits is cut. With a transaction the profiles of the transaction count as for GetCompositeSchedule.req. -/
theorem C223_application (sort : SC2.Sorter) (hsort : SC.SortsByStack sort) (w : World) (hr : PS.Reachable w.store)
    (hp : ∀ evse, ∀ p ∈ PS.validProfiles w.store [] evse, PS.Physical p) (hc : (settings w).Physical) (hk : OnlyUnits w.vars.units)
    (evse : Int) (h0 : 0 < evse) (h1 : evse ≤ w.store.env.evses.length) (u : RUnit) (hu : Names w.vars.units (unitText u))
    (now duration : Int) (hd : 0 ≤ duration) :
    ∃ s, appSchedule sort w now evse duration u = some (some s) ∧ s.evse = evse ∧ s.start = now ∧ s.unit = u ∧
      (duration ≤ intMax → s.duration = duration) ∧ (intMax < duration → s.duration = intMax) ∧
      (w.session evse.toNat = none → ∀ t, now ≤ t → t < now + s.duration → ∃ ext max o,
        SC2.Decides (fun q => (Used w evse q ∨ Used w 0 q) ∧ q.purpose = .external) none now t ext ∧
        SC2.Decides (fun q => Used w 0 q ∧ q.purpose = .stationMax) none now t max ∧
        valueAt s.periods (t - now) = some o ∧
        SC2.Applies (settings w) u ((ext.toList ++ max.toList).map SC2.constraintOf) o) ∧
      (w.session evse.toNat ≠ none → duration ≤ intMax → request sort w now evse duration (some u) = .accepted s) := by
  have hu' : UnitFor w.vars.units (some u) u := ⟨rfl, hu⟩
  have hdu : clamp32 duration ≤ intMax ∧ (duration ≤ intMax → clamp32 duration = duration) ∧ (intMax < duration → clamp32 duration = intMax) := by
    unfold clamp32 SC.intMax
    split <;> omega
  have ha : appSchedule sort w now evse duration u =
      some (some (calculate sort w evse u now (now + clamp32 duration) false)) := by
    unfold appSchedule
    rw [internal_accepted hk hu' ⟨by omega, h1⟩]
  have hdur : (calculate sort w evse u now (now + clamp32 duration) false).duration = clamp32 duration := duration_eq _ _ hdu.1
  refine ⟨_, ha, rfl, rfl, rfl, ?_, ?_, ?_, ?_⟩
  · intro h; rw [hdur]; exact hdu.2.1 h
  · intro h; rw [hdur]; exact hdu.2.2 h
  · intro hs t ht ht'
    rw [hdur] at ht'
    obtain ⟨ext, tx, mx, o, d1, d2, d3, hv, ha⟩ :=
      limit_at sort hsort w hr hp hc evse h0 h1 u now (now + clamp32 duration) false (by omega) t ht ht'
    rw [hs] at d1 d2 d3
    simp only [ne_eq, not_true_eq_false, Bool.false_eq_true, or_self, if_false] at d2
    subst d2
    exact ⟨ext, mx, o, d1, d3, hv, by simpa using ha⟩
  · intro hs hle
    rw [show request sort w now evse duration (some u) = _ from internal_accepted hk hu' ⟨by omega, h1⟩, hdu.2.1 hle]
    congr 1
    obtain ⟨k, hke⟩ : ∃ k : Nat, evse = (k : Int) + 1 := ⟨(evse - 1).toNat, by omega⟩
    have hkn : k < w.store.env.evses.length := by omega
    have hto : evse.toNat = k + 1 := by omega
    have hg : (PS.stationOf w.store (ignored w) w.session).evses[evse.toNat - 1]? =
        some ⟨w.session (k + 1), (PS.validProfiles w.store (ignored w) ((k : Int) + 1)).map PS.Profile.toSC2⟩ := by
      rw [hto]
      simp [PS.stationOf, List.getElem?_map, List.getElem?_range hkn]
    have : ∀ b, SC2.composite sort (config w) (PS.stationOf w.store (ignored w) w.session) evse.toNat u now (now + duration) b =
        SC2.composite sort (config w) (PS.stationOf w.store (ignored w) w.session) evse.toNat u now (now + duration) true := by
      intro b
      rw [SC2.composite_evse sort _ _ _ (by omega) _ hg, SC2.composite_evse sort _ _ _ (by omega) _ hg]
      unfold SC2.evseLimits SC2.evseIntermediates
      have hb : (w.session (k + 1)).isSome = true := by rw [← hto]; exact Option.isSome_iff_ne_none.2 hs
      simp only [hb, Bool.true_or]
    unfold calculate
    rw [this false]

/-! ## Examples for 2.x -/

def exWorld : World where
  store := PS.run PS.exState PS.exHistory
  session := fun k => if k = 1 then some 0 else none
  vars := { units := "A, W".toList, ignored := some "TxDefaultProfile,TxProfile".toList, amps := some 40 }
  connected := true

theorem exUnits : OnlyUnits "A, W".toList := by
  intro x hx
  have := (mem_split _ _).2 hx
  rw [show splitString "A, W".toList = [['A'], [' ', 'W']] by decide +kernel] at this
  simp only [List.mem_cons, List.not_mem_nil, or_false] at this
  rcases this with rfl | rfl
  · exact ⟨.A, 0, 0, rfl⟩
  · exact ⟨.W, 1, 0, rfl⟩

theorem exUnitFor : UnitFor "A, W".toList none .A ∧ UnitFor "A, W".toList (some .W) .W ∧ ¬ UnitFor "A".toList (some .W) .W := by
  refine ⟨⟨0, 0, ", W".toList, by decide, .inr ⟨" W".toList, by decide⟩⟩, ⟨rfl, 1, 0, ?_⟩, fun h => ?_⟩
  · exact (mem_split _ _).1 (by decide +kernel)
  · have := (mem_units "A".toList .W).2 h.2
    revert this
    decide +kernel

theorem exPhysical : (settings exWorld).Physical := by
  constructor <;> (simp only [settings, exWorld]; norm_num)

theorem exProfiles : ∀ evse, ∀ p ∈ PS.validProfiles exWorld.store [] evse, PS.Physical p := by
  intro evse p hp
  obtain ⟨r, hr, _, hq, _, _⟩ := PS.C54_used_are_stored _ _ _ p hp
  have h4 : exWorld.store.rows.all (fun r => [PS.PhaseType.AC, .DC, .unknown].all fun pt =>
      (PS.conform pt r.profile).toSC2.check && (PS.conform pt r.profile).toSC2.periods.all (fun x => decide (x.start ≤ intMax))) = true := by
    decide +kernel
  have h5 := List.all_eq_true.1 (List.all_eq_true.1 h4 r hr) (exWorld.store.env.phaseType evse)
    (by cases exWorld.store.env.phaseType evse <;> simp)
  rw [Bool.and_eq_true] at h5
  rw [hq]
  exact ⟨(SC2.Profile.check_ok h5.1).2, fun x hx => of_decide_eq_true (List.all_eq_true.1 h5.2 x hx)⟩

/-- The assumptions of `C221_answer`, `C221_contents`, `C222_offline`, `C223_application` are met. -/
example : PS.Reachable exWorld.store ∧ OnlyUnits exWorld.vars.units ∧ UnitFor exWorld.vars.units none .A ∧ (settings exWorld).Physical ∧
    (∀ evse, ∀ p ∈ PS.validProfiles exWorld.store [] evse, PS.Physical p) ∧ exWorld.store.env.evses.length = 2 :=
  ⟨show PS.Reachable (PS.run PS.exState PS.exHistory) from ⟨PS.exEnv, _, PS.exHistory, rfl⟩, exUnits, exUnitFor.1, exPhysical, exProfiles, by decide +kernel⟩

/-- What is used online and offline; the answers; the application's schedule of EVSE 2, which has no transaction. -/
example : (PS.validProfiles exWorld.store (ignored exWorld) 2).map (·.id) = [6] ∧
    PS.validProfiles exWorld.store (ignored { exWorld with connected := false }) 2 = [] := by decide +kernel

example : request SC2.sortByStack exWorld 0 3 600 none = .rejected "InvalidValue" "EvseDoesNotExist" := by decide +kernel

/-- Unit, duration and limits of an answer. -/
def Answer.summary : Answer → Option (Int × RUnit × Int × List (Int × Rat))
  | .accepted s => some (s.evse, s.unit, s.duration, s.periods.map fun x => (x.start, x.val.limit))
  | _ => none

example : (request SC2.sortByStack exWorld 0 2 600 none).summary = some (2, .A, 600, [(0, 16)]) := by decide +kernel

example : (request SC2.sortByStack { exWorld with connected := false } 0 2 600 none).summary = some (2, .A, 600, [(0, 40)]) := by decide +kernel

example : ((appSchedule SC2.sortByStack exWorld 0 2 600 .A).bind fun s => s.map fun s => (s.evse, s.periods.map fun x => (x.start, x.val.limit))) =
      some (2, [(0, 40)]) := by decide +kernel

example : (allSchedules SC2.sortByStack exWorld 0 600 .A).map (fun l => l.map (·.evse)) = some [0, 1, 2] := by decide +kernel

/-- **C221 (violated).** If the list of units contains another name, a request for a composite schedule ends with an exception. -/
theorem C221_unknown_unit_violated : ∃ w : World, Names w.vars.units (unitText .A) ∧
    request SC2.sortByStack w 0 1 600 (some .A) = .exception :=
  ⟨{ exWorld with vars := { units := "kW,A".toList } }, ⟨0, 0, (mem_split _ _).1 (by decide +kernel)⟩, by decide +kernel⟩

/-! ## OCPP 1.6 -/

/-- The configured limits, number of phases and voltage of a 1.6 station, or the defaults. -/
def settings16 (s : Station) (ignore : List SC16.Purpose) : SC16.Config where
  ignore := ignore
  currentLimit := match s.amps with | some x => x | none => 48
  powerLimit := match s.watts with | some x => x | none => 33120
  phases := match s.phases with | some x => x | none => 3
  voltage := match s.voltage with | some x => x | none => 230

/-- The unit of an answer in 1.6. -/
def UnitFor16 (allowed : List RUnit) (asked : Option RUnit) (u : RUnit) : Prop :=
  match asked with
  | some v => u = v ∧ v ∈ allowed
  | none => ∃ rest, allowed = u :: rest

theorem config16_eq (s : Station) (b : Bool) : config16 s b = settings16 s (if b then ignored16 s else []) := by
  unfold config16 settings16
  cases s.amps <;> cases s.watts <;> cases s.phases <;> cases s.voltage <;> simp

theorem mem_ignored16 (s : Station) (u : SC16.Purpose) :
    u ∈ (if (!s.connected) = true then ignored16 s else []) ↔ Ignored16 s u := by
  unfold Ignored16
  cases s.connected with
  | true => simp
  | false =>
    simp only [Bool.not_false, if_true, true_and, ignored16]
    cases s.ignored with
    | none => simp
    | some l =>
      simp only [List.mem_filterMap, Option.some.injEq, ← mem_split]
      constructor
      · rintro ⟨x, hx, h⟩
        rw [purposeOf16_iff] at h
        subst h
        exact ⟨l, rfl, hx⟩
      · rintro ⟨l', rfl, hx⟩
        exact ⟨_, hx, (purposeOf16_iff _ _).2 rfl⟩

/-- **C221 (1.6).** GetCompositeSchedule.req is accepted if the connector exists and the unit asked for is allowed (the first allowed one if
none is asked for), and rejected otherwise. The schedule begins now, is in that unit and covers the requested duration, but not more than
MaxCompositeScheduleDuration. -/
theorem C221_16_answer (sort : SC16.Sorter) (s : Station) (now connector duration : Int) (asked : Option RUnit)
    (hd : min s.maxDuration duration ≤ intMax) :
    (∀ u, UnitFor16 s.allowed asked u → 0 ≤ connector → connector ≤ s.handler.connectors.length →
      ∃ r, request16 sort s now connector duration asked = .accepted connector now r ∧ r.start = now ∧ r.unit = u ∧
        r.duration = min s.maxDuration duration) ∧
    ((connector < 0 ∨ (s.handler.connectors.length : Int) < connector) → request16 sort s now connector duration asked = .rejected) ∧
    (∀ u, asked = some u → u ∉ s.allowed → request16 sort s now connector duration asked = .rejected) := by
  refine ⟨?_, ?_, ?_⟩
  · intro u hu h0 h1
    have hx : asked.any (fun u => !s.allowed.contains u) = false ∧ asked.or s.allowed.head? = some u := by
      cases asked with
      | none => obtain ⟨r, hr⟩ := hu; simp [hr]
      | some v => obtain ⟨rfl, hv⟩ := hu; simp [hv]
    refine ⟨calculate16 sort s connector.toNat u now (now + min s.maxDuration duration) (!s.connected) true, ?_, rfl, rfl, duration_eq now _ hd⟩
    unfold request16
    rw [if_neg (by omega), hx.1, hx.2]
    rfl
  · intro h
    unfold request16
    rw [if_pos (by omega)]
  · intro u hu hn
    subst hu
    unfold request16
    split
    · rfl
    · simp [hn]

/-- **C221 and C222 (1.6, contents).** The schedule in an accepted answer for a connector: at every instant the limit is the lowest one of
the TxProfile in force or else the TxDefaultProfile, and of the ChargePointMaxProfile in force; the configured default if there is none.
While the station is offline, and only then, exactly the purposes listed in IgnoredProfilePurposesOffline do not count. -/
theorem C222_16_contents (sort : SC16.Sorter) (hsort : SC.SortsByStack sort) (s : Station) (hs : s.handler.Sane)
    (hc : (settings16 s []).Physical) (c : Nat) (con : SC16.Connector) (hcon : s.handler.connectors[c]? = some con) (asked : Option RUnit)
    (u : RUnit) (hu : UnitFor16 s.allowed asked u) (now duration : Int) (hd : min s.maxDuration duration ≤ intMax) :
    ∃ r ign, request16 sort s now ((c : Int) + 1) duration asked = .accepted (c + 1) now r ∧ (∀ v, v ∈ ign ↔ Ignored16 s v) ∧
      ∀ t, now ≤ t → t < now + r.duration → ∃ tx max o,
        SC16.TxDecides (settings16 s ign) con true now t tx ∧
        SC16.Decides (SC16.StationProfile (settings16 s ign) s.handler) (con.tx.map SC16.Tx.start) now t max ∧
        valueAt r.periods (t - now) = some (SC16.Out.limit o, o.phases) ∧
        SC16.Applies (settings16 s ign) u ((tx.toList ++ max.toList).map SC16.limitOf) o := by
  have hlt : c < s.handler.connectors.length := (List.getElem?_eq_some_iff.1 hcon).1
  obtain ⟨r, hr, h1, h2, h3⟩ := (C221_16_answer sort s now ((c : Int) + 1) duration asked hd).1 u hu (by omega) (by omega)
  refine ⟨r, _, hr, mem_ignored16 s, ?_⟩
  intro t ht ht'
  rw [h3] at ht'
  have hphys : (config16 s (!s.connected)).Physical := by
    rw [config16_eq]
    exact ⟨hc.voltage, hc.phases, hc.currentLimit, hc.powerLimit⟩
  obtain ⟨tx, mx, o, d1, d2, hv, ha⟩ := SC16.C16_connector sort hsort (config16 s (!s.connected)) hphys s.handler hs (c + 1) (by omega) con
    (by simpa using hcon) u now (now + min s.maxDuration duration) true (by omega) t ht (by omega)
  rw [config16_eq] at d1 d2 ha
  refine ⟨tx, mx, o, d1, d2, ?_, ha⟩
  have hper : r.periods = SC16.plainComposite sort (config16 s (!s.connected)) s.handler (c + 1) u now (now + min s.maxDuration duration) true := by
    have hx : asked.any (fun u => !s.allowed.contains u) = false ∧ asked.or s.allowed.head? = some u := by
      cases asked with
      | none => obtain ⟨q, hq⟩ := hu; simp [hq]
      | some v => obtain ⟨rfl, hv⟩ := hu; simp [hv]
    unfold request16 at hr
    rw [if_neg (by omega), hx.1, hx.2] at hr
    simp only [Bool.false_eq_true, if_false] at hr
    injection hr with _ _ hr
    rw [← hr]
    show SC16.plainComposite sort _ s.handler ((c : Int) + 1).toNat u now _ true = _
    rw [show ((c : Int) + 1).toNat = c + 1 by omega]
  rw [hper]
  unfold SC16.plainComposite
  rw [SC16.valueAt_map (fun v : SC16.Out => (v.limit, v.phases))]
  rw [hv]
  rfl

/-- **C221 (1.6, all connectors).** The schedules of all connectors the application gets are those GetCompositeSchedule.req is answered with:
one for each connector and one for the whole station. -/
theorem C221_16_all (sort : SC16.Sorter) (s : Station) (now duration : Int) (u : RUnit) (hu : u ∈ s.allowed) (hd : duration ≤ s.maxDuration) :
    (all16 sort s now duration u).map Prod.fst = List.range (s.handler.connectors.length + 1) ∧
    ∀ c r, (c, r) ∈ all16 sort s now duration u → request16 sort s now c duration (some u) = .accepted c now r := by
  constructor
  · unfold all16
    rw [List.map_map]
    exact (List.map_congr_left (fun _ _ => rfl)).trans (List.map_id _)
  · intro c r h
    obtain ⟨k, hk, h⟩ := List.mem_map.1 h
    injection h with h1 h2
    subst h1 h2
    rw [List.mem_range] at hk
    unfold request16
    rw [if_neg (by omega)]
    simp [hu, Int.min_eq_right hd]

/-- Start, limit and number of phases: what remains of an enhanced schedule in 1.6. -/
def Enhanced16.plain (e : Enhanced16) : Schedule16 := ⟨e.start, e.duration, e.unit, e.periods.map fun x => ⟨x.start, (x.val.limit, x.val.phases)⟩⟩

/-- **C222 (1.6, enhanced schedules, partial).** If the station is connected exactly when its last BootNotification was accepted, the enhanced
schedules agree with the others, in particular in what they ignore. Missing: every other state, where they do not
(`C222_enhanced_violated`, `C222_pending_violated`). -/
theorem C222_enhanced_partial (sort : SC16.Sorter) (s : Station) (h : s.connected = true ↔ s.state = .booted) (now duration : Int) (u : RUnit) :
    (allEnhanced16 sort s now duration u).map (fun x => (x.1, x.2.plain)) = all16 sort s now duration u := by
  have : decide (s.state ≠ .booted) = !s.connected := by
    cases hc : s.connected with
    | true => simp [h.1 hc]
    | false =>
      have : s.state ≠ .booted := fun hb => by rw [h.2 hb] at hc; cases hc
      simp [this]
  unfold allEnhanced16 all16
  rw [List.map_map, this]
  rfl

theorem run16_booted (s : Station) (hb : s.state = .booted) (evs : List Ev16) (h : ∀ e ∈ evs, e = .connected ∨ e = .disconnected) :
    ∃ c, run16 s evs = { s with connected := c } := by
  induction evs generalizing s with
  | nil => exact ⟨s.connected, rfl⟩
  | cons e evs ih =>
    have hst : ∃ c, step16 s e = { s with connected := c } := by
      rcases h e (by simp) with rfl | rfl
      · exact ⟨true, by simp [step16, hb]⟩
      · exact ⟨false, rfl⟩
    obtain ⟨c, hst⟩ := hst
    obtain ⟨d, ih⟩ := ih (step16 s e) (by rw [hst]; exact hb) (fun x hx => h x (by simp [hx]))
    refine ⟨d, ?_⟩
    show run16 (step16 s e) evs = _
    rw [ih, hst]

def exStation16 : Station where
  handler := { cpMax := []
               connectors := [{ tx := none, txDefault := [{ id := 1, stack := 0, purpose := .txDefault, kind := .relative, unit := .A,
                                                            periods := [{ start := 0, limit := 16, phases := none }] }], txProfiles := [] }] }
  ignored := some "TxDefaultProfile".toList

/-- **C222 (1.6, violated).** Once its BootNotification was accepted, the enhanced schedules of a station ignore no purpose while it is offline:
whatever happens to the connection, they are those of a station without IgnoredProfilePurposesOffline. There is a station that is offline,
is to ignore TxDefaultProfiles, and still gives 16 A of a TxDefaultProfile instead of the default. -/
theorem C222_enhanced_violated :
    (∀ (sort : SC16.Sorter) (s : Station) (evs : List Ev16), s.state = .booted → (∀ e ∈ evs, e = .connected ∨ e = .disconnected) →
      ∀ now duration u, allEnhanced16 sort (run16 s evs) now duration u = allEnhanced16 sort { s with ignored := none } now duration u) ∧
    ∃ s : Station, s = run16 exStation16 [.connected, .bootAccepted, .disconnected] ∧ Ignored16 s .txDefault ∧
      ((allEnhanced16 SC16.sortByStack s 0 600 .A)[1]?.map fun x => x.2.periods.map fun y => (y.start, y.val.limit)) = some [(0, 16)] ∧
      ((all16 SC16.sortByStack s 0 600 .A)[1]?.map fun x => x.2.periods.map fun y => (y.start, y.val.1)) = some [(0, 48)] := by
  refine ⟨?_, _, rfl, ⟨rfl, _, rfl, (mem_split _ _).1 (by decide +kernel)⟩, by decide +kernel, by decide +kernel⟩
  intro sort s evs hb h now duration u
  obtain ⟨c, hc⟩ := run16_booted s hb evs h
  rw [hc]
  unfold allEnhanced16
  apply List.map_congr_left
  intro k _
  simp only [enhanced16, config16, hb, ne_eq, not_true_eq_false, decide_false, Bool.false_eq_true, if_false]

/-- **C222 (1.6, violated).** Before its BootNotification is accepted the enhanced schedules of a connected station ignore the purposes that
are to be ignored only while offline. -/
theorem C222_pending_violated : ∃ s : Station, s = run16 exStation16 [.connected, .bootPending] ∧ s.connected = true ∧
    ((allEnhanced16 SC16.sortByStack s 0 600 .A)[1]?.map fun x => x.2.periods.map fun y => (y.start, y.val.limit)) = some [(0, 48)] ∧
    ((all16 SC16.sortByStack s 0 600 .A)[1]?.map fun x => x.2.periods.map fun y => (y.start, y.val.1)) = some [(0, 16)] :=
  ⟨_, rfl, rfl, by decide +kernel, by decide +kernel⟩

/-- The assumptions of the theorems about 1.6 are met. -/
example : UnitFor16 exStation16.allowed none .A ∧ UnitFor16 exStation16.allowed (some .W) .W ∧ (settings16 exStation16 []).Physical ∧
    exStation16.handler.connectors.length = 1 ∧ (∃ s, s = run16 exStation16 [.connected, .bootAccepted] ∧ (s.connected = true ↔ s.state = .booted)) ∧
    SC16.Handler.Sane SC16.exHandler := by
  refine ⟨⟨_, rfl⟩, ⟨rfl, by decide⟩, ?_, rfl, ⟨_, rfl, by decide⟩, SC16.exHandler_sane⟩
  constructor <;> (simp only [settings16, exStation16]; norm_num)

example : request16 SC16.sortByStack exStation16 0 2 600 none = .rejected ∧
    request16 SC16.sortByStack { exStation16 with allowed := [.A] } 0 1 600 (some .W) = .rejected := by decide +kernel

end Verif.CompReq
