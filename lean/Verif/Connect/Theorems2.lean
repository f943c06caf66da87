import Verif.Connect.Theorems
/-
C94: the profiles that connections are opened with; C42: what is tried after a restart of the service; C87: the
priority list.
-/
set_option linter.constructorNameAsVariable false
set_option linter.unusedSimpArgs false

namespace Verif.Con

/-! ### C94 -/

/-- A profile that may be used: it is one of those read at the last start of the station, its slot is in the
priority list, and without security only if that is allowed. -/
def Usable (s : S) (p : Prof) : Prop :=
  p ∈ s.cached ∧ p.slot ∈ s.slots ∧ (p.sec = 0 → s.allowZero = true)

theorem profileOf_usable {s : S} {x : Int} {p : Prof} (h : profileOf s x = some p) :
    p ∈ s.cached ∧ p.slot = x ∧ (p.sec = 0 → s.allowZero = true) := by
  refine ⟨List.mem_of_find?_eq_some (profileOf_raw h), rawProfile_slot (profileOf_raw h), ?_⟩
  intro h0
  unfold profileOf at h
  rw [profileOf_raw h] at h
  simp only at h
  cases hz : s.allowZero with
  | true => rfl
  | false => simp [hz, h0] at h

theorem goodSlots_sub (s : S) (n : Nat) : ∀ x ∈ goodSlots s n, x ∈ s.slots :=
  fun _ hx => (List.mem_filter.mp hx).1

theorem check_slots (s : S) : ∀ x ∈ (check s).1.slots, x ∈ s.slots := by
  obtain ⟨_, _, _, _, _, _, _, _, _, _, h1, h2, h3⟩ := check_frame s
  intro x hx
  by_cases h : s.last = s.dmSec
  · rw [h1 h] at hx; exact hx
  · by_cases ha : activeSlot s = none
    · rw [h3 ha] at hx; exact hx
    · rw [h2 h ha] at hx; exact goodSlots_sub s _ x hx

/-- What is tried. -/
theorem tryConnect_log (s : S) (cfg : Bool) : ∃ evs, (tryConnect s cfg).1.log = s.log ++ evs ∧
    (∀ p, .attempt p ∈ evs → Usable s p) ∧ (∀ p, .options p ∉ evs) := by
  obtain ⟨_, _, f3, _, f5, _, f7, _⟩ := check_frame s
  unfold tryConnect
  simp only
  split
  · exact ⟨[], by simp [f3], by simp, by simp⟩
  · cases ha : activeSlot (check s).1 with
    | none => exact ⟨[], by simp [f3], by simp, by simp⟩
    | some a =>
      simp only
      generalize (check s).1.pending.getD a = slot
      unfold tryWith
      cases hp : profileOf (check s).1 slot with
      | none => exact ⟨[], by simp [f3], by simp, by simp⟩
      | some p =>
        simp only
        cases hi : priorityOf (check s).1 slot with
        | none => exact ⟨[.unusable slot], by simp [f3], by simp, by simp⟩
        | some i =>
          simp only
          split
          · refine ⟨[.attempt p], by simp [f3], ?_, by simp⟩
            intro q hq
            simp only [List.mem_singleton] at hq
            injection hq with hq; subst hq
            obtain ⟨u1, u2, u3⟩ := profileOf_usable hp
            refine ⟨f5 ▸ u1, ?_, f7 ▸ u3⟩
            rw [u2]
            exact check_slots s slot (List.mem_of_getElem? (indexOf_some hi))
          · exact ⟨[.unusable slot], by simp [f3], by simp, by simp⟩

/-- C94: connections are opened, and options of a connection replaced, only with profiles that were configured
when the station was started, for slots in the priority list; and with one without security only while
AllowSecurityLevelZeroConnections is true. -/
theorem C94 (s : S) (op : Op) : ∃ evs, (step s op).1.log = s.log ++ evs ∧
    (∀ p, .attempt p ∈ evs → Usable s p) ∧ (∀ p, .options p ∈ evs → Usable s p) := by
  have conn : ∀ t : S, t.log = s.log → t.cached = s.cached → t.slots = s.slots → t.allowZero = s.allowZero → ∀ cfg,
      ∃ evs, (tryConnect t cfg).1.log = s.log ++ evs ∧
        (∀ p, .attempt p ∈ evs → Usable s p) ∧ (∀ p, .options p ∈ evs → Usable s p) := by
    intro t h1 h2 h3 h4 cfg
    obtain ⟨evs, e1, e2, e3⟩ := tryConnect_log t cfg
    refine ⟨evs, h1 ▸ e1, ?_, fun p hp => absurd hp (e3 p)⟩
    intro p hp
    obtain ⟨u1, u2, u3⟩ := e2 p hp
    exact ⟨h2 ▸ u1, h3 ▸ u2, h4 ▸ u3⟩
  have quiet : ∀ t : S, t.log = s.log → ∃ evs, t.log = s.log ++ evs ∧
      (∀ p, .attempt p ∈ evs → Usable s p) ∧ (∀ p, .options p ∈ evs → Usable s p) :=
    fun t h => ⟨[], by simp [h], by simp, by simp⟩
  have conf : ∀ t : S, t.log = s.log → ∀ ok, ∃ evs, (confirm t ok).1.log = s.log ++ evs ∧
      (∀ p, .attempt p ∈ evs → Usable s p) ∧ (∀ p, .options p ∈ evs → Usable s p) := by
    intro t h ok
    unfold confirm
    cases ha : activeSlot t with
    | none => exact quiet t h
    | some a =>
      simp only
      rw [check_log]
      unfold prune setLevel
      simp only
      split
      · exact ⟨[], by simp [h], by simp, by simp⟩
      · split
        · exact ⟨[.confirmed _], by simp [h]; rfl, by simp, by simp⟩
        · exact ⟨[], by simp [h], by simp, by simp⟩
  cases op with
  | connect slot cfg =>
    simp only [step, connect]
    split
    · exact quiet _ rfl
    · split
      · exact quiet _ rfl
      · split
        · exact quiet _ rfl
        · split
          · exact quiet _ rfl
          · refine conn _ ?_ ?_ ?_ ?_ cfg <;> rfl
  | disconnect => exact quiet _ rfl
  | confirm ok =>
    simp only [step]
    split
    · exact conf s rfl ok
    · exact quiet _ rfl
  | fire cfg =>
    simp only [step, fire]
    split
    · exact quiet _ rfl
    · split
      · exact quiet _ rfl
      · refine conn _ ?_ ?_ ?_ ?_ cfg <;> rfl
    · refine conn _ ?_ ?_ ?_ ?_ cfg <;> rfl
    · split
      · exact quiet _ rfl
      · split
        · exact quiet _ rfl
        · refine conn _ ?_ ?_ ?_ ?_ cfg <;> rfl
  | wsUp r ok =>
    simp only [step]
    split
    · unfold wsUp
      simp only
      split
      · exact quiet _ rfl
      · split
        · refine conf _ ?_ ok; rfl
        · exact quiet _ rfl
    · exact quiet _ rfl
  | wsDown =>
    simp only [step]
    split
    · exact quiet _ rfl
    · exact quiet _ rfl
  | wsStopped r =>
    simp only [step]
    split
    · unfold wsStopped
      simp only
      split
      · exact quiet _ rfl
      · split <;> exact quiet _ rfl
    · exact quiet _ rfl
  | setOptions =>
    simp only [step, setOptions]
    cases ha : activeSlot s with
    | none => exact quiet _ rfl
    | some a =>
      cases hp : profileOf s a with
      | none => simp only [hp]; exact quiet _ rfl
      | some p =>
        simp only [hp]
        split
        · refine ⟨[.options p], rfl, by simp, ?_⟩
          intro q hq
          simp only [List.mem_singleton] at hq
          injection hq with hq; subst hq
          obtain ⟨u1, u2, u3⟩ := profileOf_usable hp
          exact ⟨u1, u2 ▸ List.mem_of_getElem? ha, u3⟩
        · exact quiet _ rfl
  | reconnect =>
    simp only [step, reconnect]
    split
    · exact quiet _ rfl
    · exact ⟨[.reconnect _], rfl, by simp, by simp⟩
  | setNetworkProfile p cb w =>
    simp only [step, setNetworkProfile]
    split
    · exact quiet _ rfl
    · split
      · exact quiet _ rfl
      · split
        · exact quiet _ rfl
        · split
          · exact quiet _ rfl
          · exact ⟨[.stored _], rfl, by simp, by simp⟩
  | setProfiles l => exact quiet _ rfl
  | setPriority l => exact quiet _ rfl
  | setAllowZero b => exact quiet _ rfl
  | restart => exact quiet _ rfl

/-- Non-vacuity of `C94`: a station with a profile without security connects only if that is allowed. -/
example :
    let s : S := { ex with cached := [⟨1, 0, true, 0⟩], slots := [1], dmSec := 0 }
    (step s (.connect none true)).1.log = [] ∧
    (step { s with allowZero := true } (.connect none true)).1.log = [.attempt ⟨1, 0, true, 0⟩] := by decide

/-! ### C42: after a restart of the service -/

/-- C42: when the CSMS closes the connection because it restarts, the same slot is tried again. -/
theorem C42_restart (s : S) (a : Int) (p : Prof) (hk : s.last = s.dmSec) (hw : s.wants = true) (hws : s.ws.isSome = true)
    (ha : activeSlot s = some a) (hp : profileOf s a = some p) (hu : p.urlOk = true) (hpend : s.pending = none) :
    (run s [.wsStopped true, .fire true]).log = s.log ++ [.attempt p] ∧ p.slot = a := by
  have h1 : (step s (.wsStopped true)).1 = { s with ws := some false, timer := some (.closed true) } := by
    simp only [step, hws, if_true, wsStopped]
    have ha' : activeSlot { s with ws := some false } = some a := ha
    rw [ha']
    simp only
    rw [if_pos hw]
  refine ⟨?_, rawProfile_slot (profileOf_raw hp)⟩
  have hmem : a ∈ s.slots := List.mem_of_getElem? ha
  obtain ⟨i, hi⟩ := Option.isSome_iff_exists.mp (indexOf_isSome.mpr hmem)
  show (step (step s (.wsStopped true)).1 (.fire true)).1.log = _
  rw [h1]
  have e1 : check { s with ws := some false, timer := none } = ({ s with ws := some false, timer := none }, false) := by
    unfold check; simp [hk]
  have e2 : activeSlot { s with ws := some false, timer := none } = some a := ha
  have e3 : profileOf { s with ws := some false, timer := none } a = some p := hp
  have e4 : priorityOf { s with ws := some false, timer := none } a = some i := hi
  have key : ∀ t : S, check t = (t, false) → activeSlot t = some a → t.pending = none → profileOf t a = some p →
      priorityOf t a = some i → (tryConnect t true).1.log = t.log ++ [.attempt p] := by
    intro t h1 h2 h3 h4 h5
    simp [tryConnect, h1, h2, h3, tryWith, h4, h5, hu]
  exact key _ e1 e2 hpend e3 e4

/-- Non-vacuity of `C42_restart`. -/
example : (run ex [.connect none true, .wsStopped true, .fire true]).log = [.attempt ⟨1, 1, true, 0⟩, .attempt ⟨1, 1, true, 0⟩] := by
  decide

/-! ### C87: the priority list -/

/-- C87: confirming a connection removes from NetworkConfigurationPriority exactly the slots that have no stored
profile any more, and leaves the order. -/
theorem C87_priority (s : S) (ok : Bool) (hw : s.ws.isSome = true) (a : Int) (ha : activeSlot s = some a) :
    (step s (.confirm ok)).1.dmPriority =
      s.dmPriority.filter (fun x => decide (∃ p ∈ (step s (.confirm ok)).1.dmProfiles, p.slot = x)) := by
  have hdm : ∀ t, (check t).1.dmProfiles = t.dmProfiles ∧ (check t).1.dmPriority = t.dmPriority := by
    intro t
    unfold check
    by_cases hb : (t.last == t.dmSec) = true
    · rw [if_pos hb]; exact ⟨rfl, rfl⟩
    · rw [if_neg hb]
      simp only
      cases activeSlot { t with last := t.dmSec } with
      | none => exact ⟨rfl, rfl⟩
      | some a =>
        simp only
        split
        · exact ⟨rfl, rfl⟩
        · split <;> exact ⟨rfl, rfl⟩
  simp only [step, hw, if_true, confirm, ha]
  rw [(hdm _).1, (hdm _).2]
  have hpr : (setLevel s a ok).dmPriority = s.dmPriority := by
    unfold setLevel
    split
    · rfl
    · split <;> rfl
  simp only [prune, hpr]
  apply List.filter_congr
  intro x _
  rw [Bool.eq_iff_iff]
  simp [List.any_eq_true, and_assoc]

end Verif.Con
