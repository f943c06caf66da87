import Verif.Connect.Model
import Mathlib.Tactic.Tauto
import Mathlib.Data.List.Nodup
/-
C41, C42, C87-C90: the choice of network connections.
-/
set_option linter.constructorNameAsVariable false
set_option linter.unusedSimpArgs false

namespace Verif.Con

/-! ### Lookup -/

theorem rawProfile_slot {l : List Prof} {x : Int} {p : Prof} (h : rawProfile l x = some p) : p.slot = x := by
  simpa using List.find?_some h

theorem profileOf_raw {s : S} {x : Int} {p : Prof} (h : profileOf s x = some p) : rawProfile s.cached x = some p := by
  unfold profileOf at h
  split at h
  · simp at h
  · rename_i q hq
    split at h
    · simp at h
    · rw [hq]; exact h

theorem indexOf_some {x : Int} {l : List Int} {i : Nat} (h : indexOf x l = some i) : l[i]? = some x := by
  induction l generalizing i with
  | nil => simp [indexOf] at h
  | cons y r ih =>
    simp only [indexOf] at h
    split at h
    · rename_i hy
      injection h with h; subst h
      simp only [beq_iff_eq] at hy
      simp [hy]
    · rw [Option.map_eq_some_iff] at h
      obtain ⟨j, hj, rfl⟩ := h
      simpa using ih hj

theorem indexOf_isSome {x : Int} {l : List Int} : (indexOf x l).isSome = true ↔ x ∈ l := by
  induction l with
  | nil => simp [indexOf]
  | cons y r ih =>
    simp only [indexOf]
    split
    · rename_i hy
      simp only [beq_iff_eq] at hy
      simp [hy]
    · rename_i hy
      have hy' : y ≠ x := by simpa using hy
      rw [Option.isSome_map, ih, List.mem_cons]
      exact ⟨.inr, fun h => h.resolve_left (fun e => hy' e.symm)⟩

theorem indexOf_nodup {l : List Int} (hn : l.Nodup) {x : Int} {i : Nat} (h : l[i]? = some x) : indexOf x l = some i := by
  have hx : x ∈ l := List.mem_of_getElem? h
  obtain ⟨j, hj⟩ := Option.isSome_iff_exists.mp (indexOf_isSome.mpr hx)
  have h2 := indexOf_some hj
  rw [hj]
  obtain ⟨hi, h3⟩ := List.getElem?_eq_some_iff.mp h
  obtain ⟨hj', h4⟩ := List.getElem?_eq_some_iff.mp h2
  rw [(List.Nodup.getElem_inj_iff hn).mp (h4.trans h3.symm)]

theorem goodSlots_mem {s : S} {lvl : Nat} {x : Int} : x ∈ goodSlots s lvl ↔
    x ∈ s.slots ∧ ∃ p, profileOf s x = some p ∧ lvl ≤ p.sec := by
  unfold goodSlots
  rw [List.mem_filter]
  cases h : profileOf s x with
  | none => simp
  | some p => simp

/-! ### C41: the security profile is never lowered -/

/-- What holds in every state of the station. -/
structure Inv (s : S) : Prop where
  known : s.ws.isSome = true → s.last = s.dmSec
  level : s.last = s.dmSec → ∀ x ∈ s.slots, ∀ p, rawProfile s.cached x = some p → s.dmSec ≤ p.sec
  first : s.last ≠ s.dmSec → s.active = 0
  conf : ∀ n, Ev.confirmed n ∈ s.log → n ≤ s.dmSec
  order : s.log.Pairwise (fun a b => ∀ n, a = .confirmed n →
    (∀ p, b = .attempt p → n ≤ p.sec) ∧ (∀ m, b = .confirmed m → n ≤ m) ∧ (∀ p, b = .stored p → n ≤ p.sec) ∧
    (∀ p, b = .options p → n ≤ p.sec))

/-- A new entry of the log. -/
theorem order_snoc {l : List Ev} {lvl : Nat} (ev : Ev) (hc : ∀ n, Ev.confirmed n ∈ l → n ≤ lvl)
    (ho : l.Pairwise (fun a b => ∀ n, a = .confirmed n →
      (∀ p, b = .attempt p → n ≤ p.sec) ∧ (∀ m, b = .confirmed m → n ≤ m) ∧ (∀ p, b = .stored p → n ≤ p.sec) ∧
      (∀ p, b = .options p → n ≤ p.sec)))
    (h1 : ∀ p, ev = .attempt p → lvl ≤ p.sec) (h2 : ∀ m, ev = .confirmed m → lvl ≤ m)
    (h3 : ∀ p, ev = .stored p → lvl ≤ p.sec) (h4 : ∀ p, ev = .options p → lvl ≤ p.sec) :
    (l ++ [ev]).Pairwise (fun a b => ∀ n, a = .confirmed n →
      (∀ p, b = .attempt p → n ≤ p.sec) ∧ (∀ m, b = .confirmed m → n ≤ m) ∧ (∀ p, b = .stored p → n ≤ p.sec) ∧
      (∀ p, b = .options p → n ≤ p.sec)) := by
  rw [List.pairwise_append]
  refine ⟨ho, by simp, ?_⟩
  intro a ha b hb n hn
  simp only [List.mem_singleton] at hb
  subst hb; subst hn
  have := hc n ha
  exact ⟨fun p hp => Nat.le_trans this (h1 p hp), fun m hm => Nat.le_trans this (h2 m hm),
    fun p hp => Nat.le_trans this (h3 p hp), fun p hp => Nat.le_trans this (h4 p hp)⟩

/-- What the check of the cache does. -/
theorem check_frame (s : S) : (check s).1.last = s.dmSec ∧ (check s).1.dmSec = s.dmSec ∧ (check s).1.log = s.log ∧
    (check s).1.ws = s.ws ∧ (check s).1.cached = s.cached ∧ (check s).1.active = s.active ∧
    (check s).1.allowZero = s.allowZero ∧ (check s).1.cur = s.cur ∧ (check s).1.wants = s.wants ∧
    (check s).1.timer = s.timer ∧
    (s.last = s.dmSec → check s = (s, false)) ∧
    (s.last ≠ s.dmSec → activeSlot s ≠ none → (check s).1.slots = goodSlots s s.dmSec) ∧
    (activeSlot s = none → (check s).1.slots = s.slots) := by
  unfold check
  by_cases h : s.last = s.dmSec
  · simp [h]
  · have hb : (s.last == s.dmSec) = false := by simpa using h
    simp only [hb, Bool.false_eq_true, if_false]
    have ha : activeSlot { s with last := s.dmSec } = activeSlot s := rfl
    have hg : goodSlots { s with last := s.dmSec } s.dmSec = goodSlots s s.dmSec := rfl
    cases hs : activeSlot s with
    | none => simp [ha, hs, h]
    | some a =>
      simp only [ha, hs, hg]
      split
      · simp [h]
      · split <;> simp [h]

theorem check_inv {s : S} (hl : s.last = s.dmSec → ∀ x ∈ s.slots, ∀ p, rawProfile s.cached x = some p → s.dmSec ≤ p.sec)
    (hf : s.last ≠ s.dmSec → activeSlot s = none → s.slots = [])
    (hc : ∀ n, Ev.confirmed n ∈ s.log → n ≤ s.dmSec) (ho : s.log.Pairwise (fun a b => ∀ n, a = .confirmed n →
      (∀ p, b = .attempt p → n ≤ p.sec) ∧ (∀ m, b = .confirmed m → n ≤ m) ∧ (∀ p, b = .stored p → n ≤ p.sec) ∧
      (∀ p, b = .options p → n ≤ p.sec))) : Inv (check s).1 := by
  obtain ⟨f1, f2, f3, f4, f5, f6, _, _, _, _, f7, f8, f9⟩ := check_frame s
  refine ⟨fun _ => f1.trans f2.symm, ?_, fun h => absurd (f1.trans f2.symm) h, by rw [f3, f2]; exact hc, by rw [f3]; exact ho⟩
  intro _ x hx p hp
  rw [f5] at hp; rw [f2]
  by_cases h : s.last = s.dmSec
  · rw [f7 h] at hx; exact hl h x hx p hp
  · by_cases ha : activeSlot s = none
    · rw [f9 ha, hf h ha] at hx; simp at hx
    · rw [f8 h ha, goodSlots_mem] at hx
      obtain ⟨_, q, hq, hle⟩ := hx
      rw [profileOf_raw hq] at hp
      injection hp with hp; subst hp; exact hle

theorem Inv.check {s : S} (h : Inv s) : Inv (check s).1 := by
  refine check_inv h.level ?_ h.conf h.order
  intro hne ha
  have := h.first hne
  unfold activeSlot at ha
  rw [this] at ha
  cases hs : s.slots with
  | nil => rfl
  | cons x r => rw [hs] at ha; simp at ha

theorem Inv.tryWith {s : S} (h : Inv s) (hk : s.last = s.dmSec) (slot : Int) (cfg : Bool) : Inv (tryWith s slot cfg).1 := by
  unfold Con.tryWith
  cases hp : profileOf s slot with
  | none => exact h
  | some p =>
    have hunus : Inv { s with timer := if s.wants then some (.unusable slot) else s.timer, log := s.log ++ [.unusable slot] } :=
      ⟨h.known, h.level, h.first, by intro n hn; simp at hn; exact h.conf n hn,
       order_snoc _ h.conf h.order (by simp) (by simp) (by simp) (by simp)⟩
    cases hi : priorityOf s slot with
    | none => exact hunus
    | some i =>
      simp only
      split
      · refine ⟨fun _ => hk, h.level, fun hne => absurd hk hne, by intro n hn; simp at hn; exact h.conf n hn, ?_⟩
        apply order_snoc _ h.conf h.order _ (by simp) (by simp) (by simp)
        intro q hq
        injection hq with hq; subst hq
        exact h.level hk slot (indexOf_isSome.mp (by unfold priorityOf at hi; simp [hi])) p (profileOf_raw hp)
      · exact hunus

theorem Inv.tryConnect {s : S} (h : Inv s) (cfg : Bool) : Inv (tryConnect s cfg).1 := by
  unfold Con.tryConnect
  have hc := h.check
  obtain ⟨f1, f2, _⟩ := check_frame s
  simp only
  split
  · exact hc
  · cases ha : activeSlot (Con.check s).1 with
    | none => exact hc
    | some a => exact hc.tryWith (f1.trans f2.symm) _ cfg

theorem setLevel_frame (s : S) (a : Int) (ok : Bool) : (setLevel s a ok).slots = s.slots ∧
    (setLevel s a ok).cached = s.cached ∧ (setLevel s a ok).active = s.active ∧ (setLevel s a ok).ws = s.ws ∧
    (setLevel s a ok).last = s.last ∧ (setLevel s a ok).allowZero = s.allowZero ∧
    (setLevel s a ok).cur = s.cur ∧ (setLevel s a ok).wants = s.wants ∧ (setLevel s a ok).timer = s.timer ∧
    (setLevel s a ok).pending = s.pending := by
  unfold setLevel
  split
  · simp
  · split <;> simp

theorem Inv.confirm {s : S} (h : Inv s) (hw : s.ws.isSome = true) (ok : Bool) : Inv (confirm s ok).1 := by
  unfold Con.confirm
  cases ha : activeSlot s with
  | none => exact h
  | some a =>
    have hk := h.known hw
    have hmem : a ∈ s.slots := List.mem_of_getElem? ha
    obtain ⟨e1, e2, e3, e4, e5, e6, _⟩ := setLevel_frame s a ok
    have hact : activeSlot (prune (setLevel s a ok)) = some a := by
      unfold activeSlot prune; simp only; rw [e1, e3]; exact ha
    have hlvl : s.dmSec ≤ (setLevel s a ok).dmSec ∧ (∀ n, Ev.confirmed n ∈ (setLevel s a ok).log → n ≤ (setLevel s a ok).dmSec) ∧
        (setLevel s a ok).log.Pairwise (fun a b => ∀ n, a = .confirmed n →
          (∀ p, b = .attempt p → n ≤ p.sec) ∧ (∀ m, b = .confirmed m → n ≤ m) ∧ (∀ p, b = .stored p → n ≤ p.sec) ∧
          (∀ p, b = .options p → n ≤ p.sec)) := by
      unfold setLevel
      cases hp : profileOf s a with
      | none => exact ⟨Nat.le_refl _, h.conf, h.order⟩
      | some p =>
        cases ok with
        | false => exact ⟨Nat.le_refl _, h.conf, h.order⟩
        | true =>
          have hle : s.dmSec ≤ p.sec := h.level hk a hmem p (profileOf_raw hp)
          refine ⟨hle, ?_, ?_⟩
          · intro n hn
            simp only [if_true, List.mem_append, List.mem_singleton] at hn
            rcases hn with hn | hn
            · exact Nat.le_trans (h.conf n hn) hle
            · injection hn with hn; subst hn; exact Nat.le_refl _
          · simp only [if_true]
            exact order_snoc _ h.conf h.order (by simp) (by intro m hm; injection hm with hm; subst hm; exact hle) (by simp) (by simp)
    have hd : (prune (setLevel s a ok)).dmSec = (setLevel s a ok).dmSec := rfl
    refine check_inv ?_ (fun _ hn => by rw [hact] at hn; simp at hn) ?_ ?_
    · intro heq x hx p hp
      have heq' : s.dmSec = (setLevel s a ok).dmSec := by
        rw [← hk, ← e5]; exact heq
      rw [hd, ← heq']
      have hx' : x ∈ s.slots := by rw [← e1]; exact hx
      have hp' : rawProfile s.cached x = some p := by rw [← e2]; exact hp
      exact h.level hk x hx' p hp'
    · rw [hd]; exact hlvl.2.1
    · exact hlvl.2.2

/-- Changes that do not concern the invariant. -/
theorem Inv.same {s s' : S} (h : Inv s) (h1 : s'.ws.isSome = s.ws.isSome) (h2 : s'.last = s.last) (h3 : s'.dmSec = s.dmSec)
    (h4 : s'.slots = s.slots) (h5 : s'.cached = s.cached) (h6 : s'.active = s.active) (h7 : s'.log = s.log) : Inv s' :=
  ⟨by rw [h1, h2, h3]; exact h.known, by rw [h2, h3, h4, h5]; exact h.level, by rw [h2, h3, h6]; exact h.first,
   by rw [h7, h3]; exact h.conf, by rw [h7]; exact h.order⟩

theorem Inv.step {s : S} (h : Inv s) (op : Op) : Inv (step s op).1 := by
  cases op with
  | connect slot cfg =>
    simp only [Con.step, Con.connect]
    split
    · exact h
    · split
      · exact h
      · split
        · exact h
        · split
          · exact h.same rfl rfl rfl rfl rfl rfl rfl
          · exact (h.same (s' := { s with wants := true, pending := _ }) rfl rfl rfl rfl rfl rfl rfl).tryConnect cfg
  | disconnect => exact h.same rfl rfl rfl rfl rfl rfl rfl
  | confirm ok =>
    simp only [Con.step]
    split
    · rename_i hw; exact h.confirm hw ok
    · exact h
  | fire cfg =>
    simp only [Con.step, Con.fire]
    split
    · exact h
    · split
      · exact h.same rfl rfl rfl rfl rfl rfl rfl
      · exact (h.same (s' := { s with timer := none, pending := _ }) rfl rfl rfl rfl rfl rfl rfl).tryConnect cfg
    · exact (h.same (s' := { s with timer := none }) rfl rfl rfl rfl rfl rfl rfl).tryConnect cfg
    · split
      · exact h.same rfl rfl rfl rfl rfl rfl rfl
      · split
        · exact h.same rfl rfl rfl rfl rfl rfl rfl
        · exact (h.same (s' := { s with timer := none, pending := _ }) rfl rfl rfl rfl rfl rfl rfl).tryConnect cfg
  | wsUp r ok =>
    simp only [Con.step]
    split
    · rename_i hw
      have h1 : Inv { s with ws := some true } := h.same (by simp [hw]) rfl rfl rfl rfl rfl rfl
      unfold Con.wsUp
      simp only
      split
      · exact h1
      · split
        · exact h1.confirm rfl ok
        · exact h1
    · exact h
  | wsDown =>
    simp only [Con.step]
    split
    · rename_i hw; exact h.same (by simp [Con.wsDown, hw]) rfl rfl rfl rfl rfl rfl
    · exact h
  | wsStopped r =>
    simp only [Con.step]
    split
    · rename_i hw
      unfold Con.wsStopped
      simp only
      split
      · exact h.same (by simp [hw]) rfl rfl rfl rfl rfl rfl
      · cases s.wants
        · exact h.same (by simp [hw]) rfl rfl rfl rfl rfl rfl
        · exact h.same (by simp [hw]) rfl rfl rfl rfl rfl rfl
    · exact h
  | setOptions =>
    simp only [Con.step, Con.setOptions]
    cases ha : activeSlot s with
    | none => exact h
    | some a =>
      cases hp : profileOf s a with
      | none => simp only [hp]; exact h
      | some p =>
        simp only [hp]
        split
        · rename_i hc
          simp only [Bool.and_eq_true] at hc
          refine ⟨h.known, h.level, h.first, by intro n hn; simp at hn; exact h.conf n hn, ?_⟩
          apply order_snoc _ h.conf h.order (by simp) (by simp) (by simp)
          intro q hq
          injection hq with hq; subst hq
          exact h.level (h.known hc.2) a (List.mem_of_getElem? ha) p (profileOf_raw hp)
        · exact h
  | reconnect =>
    simp only [Con.step, Con.reconnect]
    split
    · exact h
    · refine ⟨h.known, h.level, h.first, by intro n hn; simp at hn; exact h.conf n hn, ?_⟩
      exact order_snoc _ h.conf h.order (by simp) (by simp) (by simp) (by simp)
  | setNetworkProfile p cb w =>
    simp only [Con.step, Con.setNetworkProfile]
    split
    · exact h
    · split
      · exact h
      · rename_i hlt
        split
        · exact h
        · split
          · exact h
          · refine ⟨h.known, h.level, h.first, by intro n hn; simp at hn; exact h.conf n hn, ?_⟩
            apply order_snoc _ h.conf h.order (by simp) (by simp) _ (by simp)
            intro q hq
            injection hq with hq; subst hq
            exact Nat.le_of_not_lt hlt
  | setProfiles l => exact h.same rfl rfl rfl rfl rfl rfl rfl
  | setPriority l => exact h.same rfl rfl rfl rfl rfl rfl rfl
  | setAllowZero b => exact h.same rfl rfl rfl rfl rfl rfl rfl
  | restart =>
    simp only [Con.step, Con.restart]
    refine ⟨by simp, ?_, fun _ => rfl, h.conf, h.order⟩
    intro h0 x _ p _
    simp only at h0
    show s.dmSec ≤ p.sec
    rw [← h0]; exact Nat.zero_le _

theorem Inv.run {s : S} (h : Inv s) (ops : List Op) : Inv (run s ops) := by
  unfold Con.run
  induction ops generalizing s with
  | nil => exact h
  | cons op r ih => exact ih (h.step op)

/-- A station that has just been started. -/
def Fresh (s : S) : Prop :=
  s.ws = none ∧ s.last = 0 ∧ s.active = 0 ∧ s.pending = none ∧ s.timer = none ∧ s.wants = false ∧ s.cur = none ∧ s.log = []

theorem Fresh.inv {s : S} (h : Fresh s) : Inv s := by
  obtain ⟨h1, h2, h3, _, _, _, _, h4⟩ := h
  refine ⟨by simp [h1], ?_, fun _ => h3, by simp [h4], by simp [h4]⟩
  intro h0 x _ p _
  rw [← h0, h2]; exact Nat.zero_le _

/-- C41: after a security profile has been confirmed, the station never opens a connection with, never
confirms, and never stores by SetNetworkProfile a lower one, whatever happens, including restarts and the CSMS
writing lists of profiles.  Partial: reconnects of the websocket on its own; see `C41_violated`. -/
theorem C41_partial (s : S) (hs : Fresh s) (ops : List Op) (before after : List Ev) (n : Nat)
    (hlog : (run s ops).log = before ++ .confirmed n :: after) :
    (∀ p, .attempt p ∈ after → n ≤ p.sec) ∧ (∀ m, .confirmed m ∈ after → n ≤ m) ∧
    (∀ p, .stored p ∈ after → n ≤ p.sec) ∧ (∀ p, .options p ∈ after → n ≤ p.sec) := by
  have h := (hs.inv.run ops).order
  rw [hlog, List.pairwise_append] at h
  have h2 := (List.pairwise_cons.mp h.2.1).1
  exact ⟨fun p hp => (h2 _ hp n rfl).1 p rfl, fun m hm => (h2 _ hm n rfl).2.1 m rfl,
    fun p hp => (h2 _ hp n rfl).2.2.1 p rfl, fun p hp => (h2 _ hp n rfl).2.2.2 p rfl⟩

/-- Three slots with rising security profiles; the station is configured for the first one. -/
def ex : S :=
  let l : List Prof := [⟨1, 1, true, 0⟩, ⟨2, 2, true, 0⟩, ⟨3, 3, true, 0⟩]
  ⟨l, [1, 2, 3], 0, none, false, 0, none, none, none, l, [1, 2, 3], 1, false, []⟩

/-- The first connection fails, the second one succeeds. -/
def exOps : List Op := [.connect none true, .wsStopped false, .fire true, .wsUp false true, .confirm true]

/-- Non-vacuity of `C41_partial`: the connection with slot 2 is confirmed; after a restart slot 1 is not used. -/
example : Fresh ex ∧ (run ex (exOps ++ [.restart, .connect none true])).log =
    [.attempt ⟨1, 1, true, 0⟩, .attempt ⟨2, 2, true, 0⟩, .confirmed 2, .attempt ⟨2, 2, true, 0⟩] := by
  refine ⟨⟨rfl, rfl, rfl, rfl, rfl, rfl, rfl, rfl⟩, by decide⟩

/-- C41 is violated: when the connection with slot 2 is confirmed twice (a BootNotification is triggered), the
security profile of slot 3 is confirmed; then the websocket reconnects with the lower one. -/
theorem C41_violated : ∃ before after n p,
    (run ex (exOps ++ [.confirm true, .reconnect])).log = before ++ .confirmed n :: after ∧
    .reconnect p ∈ after ∧ p.sec < n := by
  refine ⟨[.attempt ⟨1, 1, true, 0⟩, .attempt ⟨2, 2, true, 0⟩, .confirmed 2], [.reconnect ⟨2, 2, true, 0⟩], 3,
    ⟨2, 2, true, 0⟩, by decide, by simp, by decide⟩

/-! ### C87: the security profile confirmed is that of the connection -/

/-- C87 is violated: the slots with a lower security profile are removed from the list, but the index of the
active one is kept.  After that the station takes slot 3 for the active one: confirming the connection with
slot 2 again sets SecurityProfile to 3 and removes the profile of slot 2. -/
theorem C87_violated :
    let s := run ex (exOps ++ [.confirm true])
    s.ws = some true ∧ s.cur = some ⟨2, 2, true, 0⟩ ∧ s.dmSec = 3 ∧ s.dmProfiles = [⟨3, 3, true, 0⟩] := by
  decide

/-- Ops between the attempt and its confirmation. -/
def Quiet : Op → Prop
  | .disconnect | .wsUp false _ | .wsDown | .wsStopped _ | .reconnect | .setNetworkProfile _ _ _ | .setProfiles _
  | .setPriority _ => True
  | _ => False

/-- The active slot is that of the options of the websocket. -/
def Sync (p : Prof) (s : S) : Prop :=
  s.ws.isSome = true ∧ s.cur = some p ∧ ∃ a, activeSlot s = some a ∧ profileOf s a = some p

theorem Sync.quiet {p : Prof} {s : S} (h : Sync p s) (op : Op) (hq : Quiet op) : Sync p (step s op).1 := by
  obtain ⟨h1, h2, a, h3, h4⟩ := h
  cases op with
  | disconnect => exact ⟨h1, h2, a, h3, h4⟩
  | wsUp r ok =>
    cases r with
    | true => simp [Quiet] at hq
    | false =>
      simp only [step, h1, if_true, wsUp]
      have h3' : activeSlot { s with ws := some true } = some a := h3
      simp only [h3', Bool.false_and, Bool.false_eq_true, if_false]
      exact ⟨rfl, h2, a, h3, h4⟩
  | wsDown => simp only [step, h1, if_true, wsDown]; exact ⟨rfl, h2, a, h3, h4⟩
  | wsStopped r =>
    simp only [step, h1, if_true, wsStopped]
    have h3' : activeSlot { s with ws := some false } = some a := h3
    simp only [h3']
    split <;> exact ⟨rfl, h2, a, h3, h4⟩
  | reconnect => simp only [step, reconnect, h2]; exact ⟨h1, rfl, a, h3, h4⟩
  | setNetworkProfile q cb w =>
    simp only [step, setNetworkProfile]
    split
    · exact ⟨h1, h2, a, h3, h4⟩
    · split
      · exact ⟨h1, h2, a, h3, h4⟩
      · split
        · exact ⟨h1, h2, a, h3, h4⟩
        · split <;> exact ⟨h1, h2, a, h3, h4⟩
  | setProfiles l => exact ⟨h1, h2, a, h3, h4⟩
  | setPriority l => exact ⟨h1, h2, a, h3, h4⟩
  | connect slot cfg => simp [Quiet] at hq
  | confirm ok => simp [Quiet] at hq
  | fire cfg => simp [Quiet] at hq
  | setOptions => simp [Quiet] at hq
  | setAllowZero b => simp [Quiet] at hq
  | restart => simp [Quiet] at hq

/-- C87: the first confirmation after a connection was attempted writes the security profile of that
connection, and keeps exactly the stored profiles that are not lower.  Partial: the first one only; see
`C87_violated`. -/
theorem C87_partial (s : S) (cfg : Bool) (p : Prof) (hp : (tryConnect s cfg).1.log = s.log ++ [.attempt p])
    (ops : List Op) (hq : ∀ op ∈ ops, Quiet op) :
    let s' := run (tryConnect s cfg).1 ops
    (step s' (.confirm true)).1.dmSec = p.sec ∧
    (step s' (.confirm true)).1.dmProfiles = s'.dmProfiles.filter (fun q => decide (p.sec ≤ q.sec)) := by
  have hsync : Sync p (tryConnect s cfg).1 := by
    unfold tryConnect at hp ⊢
    obtain ⟨_, _, f3, _⟩ := check_frame s
    simp only at hp ⊢
    split at hp
    · rw [f3] at hp; simp at hp
    · rename_i hthrow
      rw [if_neg hthrow]
      cases ha : activeSlot (check s).1 with
      | none => rw [ha] at hp; simp only at hp; rw [f3] at hp; simp at hp
      | some a =>
        rw [ha] at hp
        simp only at hp ⊢
        generalize (check s).1.pending.getD a = slot at hp ⊢
        unfold tryWith at hp ⊢
        cases hpr : profileOf (check s).1 slot with
        | none => simp only [hpr] at hp; rw [f3] at hp; simp at hp
        | some q =>
          simp only [hpr] at hp ⊢
          cases hi : priorityOf (check s).1 slot with
          | none => simp only [hi] at hp; rw [f3] at hp; simp at hp
          | some i =>
            simp only [hi] at hp ⊢
            split at hp
            · rename_i hu
              rw [if_pos hu]
              simp only [f3] at hp
              have := List.append_cancel_left hp
              injection this with hq1 _
              injection hq1 with hq1
              subst hq1
              exact ⟨rfl, rfl, slot, indexOf_some hi, hpr⟩
            · simp only [f3] at hp
              have := List.append_cancel_left hp
              injection this with hq1 _
              simp at hq1
  have hrun : Sync p (run (tryConnect s cfg).1 ops) := by
    unfold run
    generalize (tryConnect s cfg).1 = s1 at hsync
    induction ops generalizing s1 with
    | nil => exact hsync
    | cons op r ih =>
      exact ih (fun o ho => hq o (List.mem_cons_of_mem _ ho)) _ (hsync.quiet op (hq op (List.mem_cons_self ..)))
  intro s'
  obtain ⟨h1, _, a, h3, h4⟩ : Sync p s' := hrun
  simp only [step, h1, if_true, confirm, h3]
  have hl : setLevel s' a true = { s' with dmSec := p.sec, log := s'.log ++ [.confirmed p.sec] } := by
    simp [setLevel, h4]
  obtain ⟨_, f2, _⟩ := check_frame (prune (setLevel s' a true))
  refine ⟨by rw [f2, hl]; rfl, ?_⟩
  have hdm : ∀ t, (check t).1.dmProfiles = t.dmProfiles := by
    intro t
    unfold check
    by_cases hb : (t.last == t.dmSec) = true
    · rw [if_pos hb]
    · rw [if_neg hb]
      simp only
      cases activeSlot { t with last := t.dmSec } with
      | none => rfl
      | some a =>
        simp only
        split
        · rfl
        · split <;> rfl
  rw [hdm, hl]
  simp only [prune]
  congr 1
  funext q
  by_cases h : p.sec ≤ q.sec <;> simp [h] <;> omega

/-- Non-vacuity of `C87_partial`. -/
example : (tryConnect ex true).1.log = [.attempt ⟨1, 1, true, 0⟩] := by decide

/-! ### C88: no exceptions -/

/-- C88 is violated: two slots, the second one has a higher security profile.  The connection with the second
is confirmed; then the first one is removed, and the index of the active one is beyond the list.  When the
connection closes, an exception is thrown in the thread of the websocket, and the station never reconnects. -/
theorem C88_violated :
    let l : List Prof := [⟨1, 1, true, 0⟩, ⟨2, 2, true, 0⟩]
    let s : S := ⟨l, [1, 2], 0, none, false, 0, none, none, none, l, [1, 2], 1, false, []⟩
    Fresh s ∧ throws s exOps = false ∧ (step (run s exOps) .wsDown).2 = true ∧
    (step (run s exOps) (.wsStopped false)).2 = true ∧ (step (run s exOps) (.wsStopped true)).2 = true ∧
    (step (run s exOps) (.connect none true)).2 = true ∧ (step (run s exOps) .setOptions).2 = true := by
  refine ⟨⟨rfl, rfl, rfl, rfl, rfl, rfl, rfl, rfl⟩, ?_⟩
  decide

/-- C88: when the security profile has been raised and slots below it are dropped, the slot to be tried next is one of the slots that are left (unless
an exception is thrown, see `C88_violated`). -/
theorem C88_next (s : S) (ok : Bool) (a : Int) (ha : activeSlot s = some a) (hl : s.last ≠ (setLevel s a ok).dmSec)
    (ht : (confirm s ok).2 = false) : ∃ x ∈ (confirm s ok).1.slots, (confirm s ok).1.pending = some x := by
  have hl' : ((prune (setLevel s a ok)).last == (prune (setLevel s a ok)).dmSec) = false := by
    simp only [beq_eq_false_iff_ne]
    intro h; apply hl
    have : (setLevel s a ok).last = s.last := by
      unfold setLevel; split
      · rfl
      · split <;> rfl
    rw [← this]; exact h
  have hc : confirm s ok = check (prune (setLevel s a ok)) := by unfold confirm; rw [ha]
  rw [hc] at ht ⊢
  generalize prune (setLevel s a ok) = r at *
  unfold check at *
  simp only [hl', Bool.false_eq_true, if_false] at ht ⊢
  split at ht
  · simp at ht
  · split at ht
    · rename_i h
      simp only [h, if_true]
      exact ⟨_, indexOf_isSome.mp h, rfl⟩
    · rename_i h
      simp only [h, Bool.false_eq_true, if_false]
      split at ht
      · simp at ht
      · rename_i n hn
        simp only [hn]
        exact ⟨n, List.mem_of_getElem? hn, rfl⟩

/-- Non-vacuity of `C88_next`: the second of three slots is confirmed at profile 2; the first is dropped, the second stays the one to try. -/
example :
    let l : List Prof := [⟨1, 1, true, 0⟩, ⟨2, 2, true, 0⟩, ⟨3, 2, true, 0⟩]
    let s : S := ⟨l, [1, 2, 3], 0, none, false, 0, none, none, none, l, [1, 2, 3], 1, false, []⟩
    let r := confirm { s with active := 1, ws := some true, last := 1 } true
    r.2 = false ∧ r.1.slots = [2, 3] ∧ r.1.pending = some 2 := by decide

/-- All slots can be used, with the same security profile. -/
structure Uniform (lvl : Nat) (s : S) : Prop where
  some' : s.slots ≠ []
  act : s.active < s.slots.length
  prof : ∀ x ∈ s.slots, ∃ p, profileOf s x = some p ∧ p.sec = lvl
  pend : ∀ x, s.pending = some x → (profileOf s x).isSome = true
  low : s.dmSec ≤ lvl

theorem Uniform.active {lvl : Nat} {s : S} (h : Uniform lvl s) : ∃ a, activeSlot s = some a ∧ a ∈ s.slots :=
  ⟨s.slots[s.active]'h.act, List.getElem?_eq_getElem h.act, List.getElem_mem h.act⟩

theorem Uniform.next {lvl : Nat} {s : S} (h : Uniform lvl s) (x : Int) : ∃ n, nextSlot s x = some n ∧ n ∈ s.slots := by
  unfold nextSlot
  have hpos : 0 < s.slots.length := List.length_pos_iff.mpr h.some'
  split
  · rename_i i _
    have hl := Nat.mod_lt (i + 1) hpos
    exact ⟨_, List.getElem?_eq_getElem hl, List.getElem_mem hl⟩
  · exact ⟨_, List.getElem?_eq_getElem hpos, List.getElem_mem hpos⟩

theorem Uniform.check {lvl : Nat} {s : S} (h : Uniform lvl s) : (check s).2 = false ∧ Uniform lvl (check s).1 := by
  unfold Con.check
  split
  · exact ⟨rfl, h⟩
  · obtain ⟨a, ha, hmem⟩ := h.active
    have ha' : activeSlot { s with last := s.dmSec } = some a := ha
    have hg : goodSlots { s with last := s.dmSec } s.dmSec = s.slots := by
      unfold goodSlots
      apply List.filter_eq_self.mpr
      intro x hx
      obtain ⟨p, hp, hl⟩ := h.prof x hx
      have hp' : profileOf { s with last := s.dmSec } x = some p := hp
      simp only [hp', Bool.not_eq_true', decide_eq_false_iff_not]
      have := h.low; omega
    simp only [ha', hg]
    split
    · rename_i hi
      refine ⟨rfl, h.some', h.act, h.prof, ?_, h.low⟩
      intro x hx
      injection hx with hx
      have hmem : x ∈ s.slots := by rw [← hx]; exact indexOf_isSome.mp hi
      obtain ⟨p, hp, _⟩ := h.prof x hmem
      have hp' : profileOf { s with last := s.dmSec, slots := s.slots, pending := some (s.pending.getD a) } x = some p := hp
      rw [hp']; rfl
    · obtain ⟨n, hn, hnm⟩ := h.next (s.pending.getD a)
      have hn' : nextSlot { s with last := s.dmSec, slots := s.slots } (s.pending.getD a) = some n := hn
      simp only [hn']
      refine ⟨trivial, h.some', h.act, h.prof, ?_, h.low⟩
      intro x hx
      injection hx with hx
      obtain ⟨p, hp, _⟩ := h.prof n hnm
      rw [← hx]
      have hp' : profileOf { s with last := s.dmSec, slots := s.slots, pending := some n } n = some p := hp
      rw [hp']; rfl

theorem indexOf_lt {x : Int} {l : List Int} {i : Nat} (h : indexOf x l = some i) : i < l.length :=
  (List.getElem?_eq_some_iff.mp (indexOf_some h)).1

theorem Uniform.tryConnect {lvl : Nat} {s : S} (h : Uniform lvl s) (cfg : Bool) :
    (tryConnect s cfg).2 = false ∧ Uniform lvl (tryConnect s cfg).1 := by
  obtain ⟨c1, c2⟩ := h.check
  unfold Con.tryConnect
  simp only [c1, Bool.false_eq_true, if_false]
  generalize (Con.check s).1 = t at c2
  obtain ⟨a, ha, hm⟩ := c2.active
  simp only [ha]
  have hslot : ∃ p, profileOf t (t.pending.getD a) = some p := by
    cases hp : t.pending with
    | none => obtain ⟨p, hp, _⟩ := c2.prof a hm; exact ⟨p, hp⟩
    | some x => exact Option.isSome_iff_exists.mp (c2.pend x hp)
  obtain ⟨p, hp⟩ := hslot
  generalize hx : t.pending.getD a = x at hp
  unfold tryWith
  simp only [hp]
  cases hi : priorityOf t x with
  | none => exact ⟨rfl, c2.some', c2.act, c2.prof, c2.pend, c2.low⟩
  | some i =>
    simp only
    split
    · exact ⟨rfl, c2.some', indexOf_lt hi, c2.prof, by simp, c2.low⟩
    · exact ⟨rfl, c2.some', c2.act, c2.prof, c2.pend, c2.low⟩

theorem Uniform.confirm {lvl : Nat} {s : S} (h : Uniform lvl s) (ok : Bool) :
    (confirm s ok).2 = false ∧ Uniform lvl (confirm s ok).1 := by
  obtain ⟨a, ha, hm⟩ := h.active
  obtain ⟨p, hp, hl⟩ := h.prof a hm
  unfold Con.confirm
  simp only [ha]
  apply Uniform.check
  unfold setLevel
  simp only [hp]
  split
  · exact ⟨h.some', h.act, h.prof, h.pend, by simp [prune, hl]⟩
  · exact ⟨h.some', h.act, h.prof, h.pend, h.low⟩

/-- C88: a station whose slots all have usable profiles with the same security profile never throws while it
runs, whatever happens.  Partial: for different security profiles see `C88_violated`. -/
theorem C88_partial (lvl : Nat) (s : S) (hs : Uniform lvl s) (ops : List Op)
    (hops : ∀ op ∈ ops, op ≠ .restart ∧ ∀ b, op ≠ .setAllowZero b) : throws s ops = false := by
  induction ops generalizing s with
  | nil => rfl
  | cons op r ih =>
    have key : (step s op).2 = false ∧ Uniform lvl (step s op).1 := by
      have hop := hops op (List.mem_cons_self ..)
      obtain ⟨a, ha, hm⟩ := hs.active
      obtain ⟨p, hp, hl⟩ := hs.prof a hm
      have pend : ∀ {n : Int}, n ∈ s.slots → (profileOf s n).isSome = true := by
        intro n hn
        obtain ⟨q, hq, _⟩ := hs.prof n hn
        rw [hq]; rfl
      cases op with
      | connect slot cfg =>
        simp only [step, connect]
        rw [if_neg hs.some']
        simp only [ha]
        split
        · exact ⟨rfl, hs⟩
        · rename_i hsome
          have hsome' : (profileOf s (slot.getD a)).isSome = true := by
            cases hq : profileOf s (slot.getD a) with
            | none => simp [hq] at hsome
            | some q => rfl
          have hu : Uniform lvl { s with wants := true, pending := some (slot.getD a) } := by
            refine ⟨hs.some', hs.act, hs.prof, ?_, hs.low⟩
            intro x hx; injection hx with hx; subst hx; exact hsome'
          split
          · exact ⟨rfl, hu⟩
          · exact hu.tryConnect cfg
      | disconnect => exact ⟨rfl, hs.some', hs.act, hs.prof, hs.pend, hs.low⟩
      | confirm ok =>
        simp only [step]
        split
        · exact hs.confirm ok
        · exact ⟨rfl, hs⟩
      | fire cfg =>
        simp only [step, fire]
        split
        · exact ⟨rfl, hs⟩
        · rename_i slot _
          obtain ⟨n, hn, hnm⟩ := hs.next slot
          simp only [hn]
          refine Uniform.tryConnect (s := { s with timer := none, pending := some n }) ⟨hs.some', hs.act, hs.prof, ?_, hs.low⟩ cfg
          intro x hx; injection hx with hx; subst hx; exact pend hnm
        · exact Uniform.tryConnect (s := { s with timer := none }) ⟨hs.some', hs.act, hs.prof, hs.pend, hs.low⟩ cfg
        · obtain ⟨n, hn, hnm⟩ := hs.next a
          simp only [ha, hn]
          refine Uniform.tryConnect (s := { s with timer := none, pending := some n }) ⟨hs.some', hs.act, hs.prof, ?_, hs.low⟩ cfg
          intro x hx; injection hx with hx; subst hx; exact pend hnm
      | wsUp r ok =>
        simp only [step]
        split
        · unfold wsUp
          have ha' : activeSlot { s with ws := some true } = some a := ha
          have hu : Uniform lvl { s with ws := some true } := ⟨hs.some', hs.act, hs.prof, hs.pend, hs.low⟩
          simp only [ha']
          split
          · exact hu.confirm ok
          · exact ⟨rfl, hu⟩
        · exact ⟨rfl, hs⟩
      | wsDown =>
        simp only [step]
        split
        · unfold wsDown
          have ha' : activeSlot { s with ws := some false } = some a := ha
          simp only [ha']
          exact ⟨by first | rfl | trivial, hs.some', hs.act, hs.prof, hs.pend, hs.low⟩
        · exact ⟨rfl, hs⟩
      | wsStopped r =>
        simp only [step]
        split
        · unfold wsStopped
          have ha' : activeSlot { s with ws := some false } = some a := ha
          simp only [ha']
          split <;> exact ⟨by first | rfl | trivial, hs.some', hs.act, hs.prof, hs.pend, hs.low⟩
        · exact ⟨rfl, hs⟩
      | setOptions =>
        simp only [step, setOptions, ha, hp]
        split <;> exact ⟨by first | rfl | trivial, hs.some', hs.act, hs.prof, hs.pend, hs.low⟩
      | reconnect =>
        simp only [step, reconnect]
        split <;> exact ⟨rfl, hs.some', hs.act, hs.prof, hs.pend, hs.low⟩
      | setNetworkProfile q cb w =>
        simp only [step, setNetworkProfile]
        refine ⟨trivial, ?_⟩
        split
        · exact hs
        · split
          · exact hs
          · split
            · exact hs
            · split
              · exact hs
              · exact ⟨hs.some', hs.act, hs.prof, hs.pend, hs.low⟩
      | setProfiles l => exact ⟨rfl, hs.some', hs.act, hs.prof, hs.pend, hs.low⟩
      | setPriority l => exact ⟨rfl, hs.some', hs.act, hs.prof, hs.pend, hs.low⟩
      | setAllowZero b => exact absurd rfl (hop.2 b)
      | restart => exact absurd rfl hop.1
    simp only [throws, key.1, Bool.false_or]
    exact ih _ key.2 (fun o ho => hops o (List.mem_cons_of_mem _ ho))

/-- Non-vacuity of `C88_partial`. -/
example : Uniform 2 { ex with cached := [⟨1, 2, true, 0⟩, ⟨2, 2, false, 0⟩, ⟨3, 2, true, 0⟩], dmSec := 1 } := by
  refine ⟨by decide, by decide, ?_, by decide, by decide⟩
  intro x hx
  have : x = 1 ∨ x = 2 ∨ x = 3 := by simpa [ex] using hx
  rcases this with rfl | rfl | rfl
  · exact ⟨⟨1, 2, true, 0⟩, by decide, rfl⟩
  · exact ⟨⟨2, 2, false, 0⟩, by decide, rfl⟩
  · exact ⟨⟨3, 2, true, 0⟩, by decide, rfl⟩

/-! ### C42: all slots are tried -/

/-- The connection with the current slot fails: the websocket gives up, or the slot could not be used; then the
timer runs out. -/
def failOnce (s : S) (cfg : Bool) : S :=
  if s.timer.isSome then (step s (.fire cfg)).1 else (step (step s (.wsStopped false)).1 (.fire cfg)).1

/-- The slot of an attempt, successful or not. -/
def slotOf : Ev → Option Int
  | .attempt p => some p.slot
  | .unusable x => some x
  | _ => none

/-- The station is trying the slot with index `i` of its list. -/
structure Trying (i : Nat) (s : S) : Prop where
  idx : i < s.slots.length
  wants : s.wants = true
  known : s.last = s.dmSec
  prof : ∀ x ∈ s.slots, (profileOf s x).isSome = true
  cur : (∃ x, s.slots[i]? = some x ∧ s.timer = some (.unusable x)) ∨ (s.timer = none ∧ s.active = i ∧ s.ws.isSome = true)
  act : s.active < s.slots.length

theorem stop_fire {s : S} {y x : Int} (cfg : Bool) (ht : s.timer = none) (hw : s.ws.isSome = true) (hwant : s.wants = true)
    (ha : activeSlot s = some y) (hx : nextSlot s y = some x) :
    failOnce s cfg = (tryConnect { s with ws := some false, timer := none, pending := some x } cfg).1 := by
  have h1 : (step s (.wsStopped false)).1 = { s with ws := some false, timer := some (.closed false) } := by
    simp only [step, hw, if_true, wsStopped]
    have ha' : activeSlot { s with ws := some false } = some y := ha
    rw [ha']
    simp only
    rw [if_pos hwant]
  unfold failOnce
  simp only [ht, Option.isSome_none, Bool.false_eq_true, if_false]
  rw [h1]
  have ha2 : activeSlot { s with ws := some false, timer := some (.closed false) } = some y := ha
  have hx2 : nextSlot { s with ws := some false, timer := some (.closed false) } y = some x := hx
  simp only [step, fire, ha2, hx2]

/-- After a failure the next slot is tried. -/
theorem Trying.fail {i : Nat} {s : S} (hn : s.slots.Nodup) (h : Trying i s) (cfg : Bool) :
    ∃ ev x, Trying ((i + 1) % s.slots.length) (failOnce s cfg) ∧ (failOnce s cfg).slots = s.slots ∧
      (failOnce s cfg).log = s.log ++ [ev] ∧ s.slots[(i + 1) % s.slots.length]? = some x ∧ slotOf ev = some x := by
  have hpos : 0 < s.slots.length := Nat.lt_of_le_of_lt (Nat.zero_le _) h.idx
  have hlt : (i + 1) % s.slots.length < s.slots.length := Nat.mod_lt _ hpos
  obtain ⟨x, hx⟩ : ∃ x, s.slots[(i + 1) % s.slots.length]? = some x := ⟨_, List.getElem?_eq_getElem hlt⟩
  obtain ⟨y, hy⟩ : ∃ y, s.slots[i]? = some y := ⟨_, List.getElem?_eq_getElem h.idx⟩
  have hnext : nextSlot s y = some x := by
    unfold nextSlot priorityOf
    rw [indexOf_nodup hn hy]; exact hx
  have hxm : x ∈ s.slots := List.mem_of_getElem? hx
  obtain ⟨p, hp⟩ := Option.isSome_iff_exists.mp (h.prof x hxm)
  -- one run of the timer
  have main : ∀ t : S, t.slots = s.slots → t.wants = true → t.last = t.dmSec → t.cached = s.cached → t.allowZero = s.allowZero →
      t.active < t.slots.length → t.pending = some x → t.timer = none → t.log = s.log →
      ∃ ev, Trying ((i + 1) % s.slots.length) (tryConnect t cfg).1 ∧ (tryConnect t cfg).1.slots = s.slots ∧
        (tryConnect t cfg).1.log = s.log ++ [ev] ∧ slotOf ev = some x := by
    intro t t1 t2 t3 t4 t5 t6 t7 t8 t9
    have hprof : ∀ z, profileOf t z = profileOf s z := by intro z; unfold profileOf; rw [t4, t5]
    have hc : check t = (t, false) := by unfold check; simp [t3]
    unfold tryConnect
    simp only [hc, Bool.false_eq_true, if_false]
    have ha : activeSlot t = some (t.slots[t.active]'t6) := List.getElem?_eq_getElem t6
    simp only [ha, t7, Option.getD_some]
    unfold tryWith
    have hi : priorityOf t x = some ((i + 1) % s.slots.length) := by
      unfold priorityOf; rw [t1]; exact indexOf_nodup hn hx
    rw [hprof, hp]
    simp only [hi]
    rw [if_pos t2]
    split
    · refine ⟨.attempt p, ⟨by rw [t1]; exact hlt, t2, t3, ?_, .inr ⟨t8, rfl, rfl⟩, by rw [t1]; exact hlt⟩, t1, by rw [t9], ?_⟩
      · intro z hz
        have : profileOf { t with pending := none, active := (i + 1) % s.slots.length, ws := some false, cur := some p, log := t.log ++ [.attempt p] } z = profileOf t z := rfl
        rw [this, hprof]; exact h.prof z (t1 ▸ hz)
      · simp [slotOf, rawProfile_slot (profileOf_raw hp)]
    · refine ⟨.unusable x, ⟨by rw [t1]; exact hlt, t2, t3, ?_, .inl ⟨x, by rw [t1]; exact hx, rfl⟩, t6⟩, t1, by rw [t9], rfl⟩
      intro z hz
      have : profileOf { t with timer := some (.unusable x), log := t.log ++ [.unusable x] } z = profileOf t z := rfl
      rw [this, hprof]; exact h.prof z (t1 ▸ hz)
  unfold failOnce
  rcases h.cur with ⟨z, hz, ht⟩ | ⟨ht, ha, hw⟩
  · rw [hy] at hz; injection hz with hz; subst hz
    simp only [ht, Option.isSome_some, if_true, step, fire, hnext]
    obtain ⟨ev, m1, m2, m3, m4⟩ := main { s with timer := none, pending := some x } rfl h.wants h.known rfl rfl h.act rfl rfl rfl
    exact ⟨ev, x, m1, m2, m3, hx, m4⟩
  · have hact : activeSlot s = some y := by unfold activeSlot; rw [ha]; exact hy
    have e := stop_fire cfg ht hw h.wants hact hnext
    unfold failOnce at e
    rw [e]
    obtain ⟨ev, m1, m2, m3, m4⟩ := main { s with ws := some false, timer := none, pending := some x } rfl h.wants h.known rfl rfl h.act rfl rfl rfl
    exact ⟨ev, x, m1, m2, m3, hx, m4⟩

/-- C42: while connections keep failing, for whatever reason, the slots are tried one after the other in the
order of the list, beginning again after the last one; so in as many failures as there are slots each one is
tried.  Partial: for lists without duplicates whose slots have profiles; see `C42_violated`. -/
theorem C42_partial (s : S) (hn : s.slots.Nodup) (i : Nat) (h : Trying i s) (cfgs : List Bool) :
    ∃ evs, (cfgs.foldl failOnce s).log = s.log ++ evs ∧
      evs.map slotOf = (List.range cfgs.length).map (fun k => s.slots[(i + 1 + k) % s.slots.length]?) ∧
      (s.slots.length ≤ cfgs.length → ∀ x ∈ s.slots, some x ∈ evs.map slotOf) := by
  have main : ∀ (cfgs : List Bool) (s : S) (i : Nat), s.slots.Nodup → Trying i s →
      ∃ evs, (cfgs.foldl failOnce s).log = s.log ++ evs ∧
        evs.map slotOf = (List.range cfgs.length).map (fun k => s.slots[(i + 1 + k) % s.slots.length]?) := by
    intro cfgs
    induction cfgs with
    | nil => intro s i _ _; exact ⟨[], by simp, rfl⟩
    | cons c r ih =>
      intro s i hn h
      obtain ⟨ev, x, h1, h2, h3, h4, h5⟩ := h.fail hn c
      obtain ⟨evs, e1, e2⟩ := ih (failOnce s c) _ (by rw [h2]; exact hn) h1
      refine ⟨ev :: evs, ?_, ?_⟩
      · rw [List.foldl_cons, e1, h3]; simp
      · rw [List.map_cons, e2, h2, List.length_cons, List.range_succ_eq_map, List.map_cons, List.map_map, h5]
        congr 1
        · rw [Nat.add_zero, h4]
        · apply List.map_congr_left
          intro k _
          simp only [Function.comp]
          have : ((i + 1) % s.slots.length + 1 + k) % s.slots.length = (i + 1 + k.succ) % s.slots.length := by
            rw [Nat.add_assoc, Nat.mod_add_mod]; congr 1; omega
          rw [this]
  obtain ⟨evs, e1, e2⟩ := main cfgs s i hn h
  refine ⟨evs, e1, e2, ?_⟩
  intro hle x hx
  rw [e2]
  obtain ⟨j, hj, hxj⟩ := List.mem_iff_getElem.mp hx
  have hi := h.idx
  obtain ⟨n, hlen⟩ : ∃ n, s.slots.length = n := ⟨_, rfl⟩
  have hjn : j < n := hlen ▸ hj
  have hin : i < n := hlen ▸ hi
  have hln : n ≤ cfgs.length := hlen ▸ hle
  rw [hlen]
  -- the number of failures after which index j is reached
  obtain ⟨k, hk, hkj⟩ : ∃ k, k < n ∧ (i + 1 + k) % n = j := by
    by_cases hc : i + 1 ≤ j
    · exact ⟨j - (i + 1), by omega, by rw [Nat.add_sub_cancel' hc]; exact Nat.mod_eq_of_lt (by omega)⟩
    · refine ⟨n + j - (i + 1), by omega, ?_⟩
      have : i + 1 + (n + j - (i + 1)) = j + n := by omega
      rw [this, Nat.add_mod_right]; exact Nat.mod_eq_of_lt (by omega)
  refine List.mem_map.mpr ⟨k, List.mem_range.mpr (by omega), ?_⟩
  rw [hkj, List.getElem?_eq_getElem hj, hxj]

/-- Non-vacuity of `C42_partial`: the station above after its first attempt. -/
example : Trying 0 (run ex [.connect none true]) ∧
    ((List.foldl failOnce (run ex [.connect none true]) [true, false, true]).log.map slotOf =
      [some 1, some 2, some 3, some 1]) := by
  refine ⟨⟨by decide, by decide, by decide, by decide, .inr (by decide), by decide⟩, by decide⟩

/-- C42 is violated when a slot occurs twice in the list: the slots after it are never tried, however often the
connection fails. -/
theorem C42_violated : ∃ s, Fresh s ∧ s.slots = [1, 1, 2] ∧ (∀ x ∈ s.slots, (profileOf s x).isSome = true) ∧
    ∀ cfgs : List Bool, some 2 ∉ ((cfgs.foldl failOnce (run s [.connect none true])).log.map slotOf) := by
  refine ⟨{ ex with slots := [1, 1, 2] }, ⟨rfl, rfl, rfl, rfl, rfl, rfl, rfl, rfl⟩, rfl, by decide, ?_⟩
  intro cfgs
  have key : ∀ (cfgs : List Bool) (s : S), s.slots = [1, 1, 2] → s.cached = ex.cached → s.allowZero = false → s.wants = true →
      s.last = s.dmSec → s.active = 0 → s.ws.isSome = true → (s.timer = none ∨ s.timer = some (.unusable 1)) →
      some 2 ∉ s.log.map slotOf → some 2 ∉ ((cfgs.foldl failOnce s).log.map slotOf) := by
    intro cfgs
    induction cfgs with
    | nil => intro s _ _ _ _ _ _ _ _ h; exact h
    | cons c r ih =>
      intro s h1 h2 h3 h4 h5 h6 h7 h8 h9
      rw [List.foldl_cons]
      have main : ∀ t : S, t.slots = [1, 1, 2] → t.cached = ex.cached → t.allowZero = false → t.wants = true →
          t.last = t.dmSec → t.active = 0 → t.ws.isSome = true → t.timer = none → t.pending = some 1 →
          some 2 ∉ t.log.map slotOf →
          some 2 ∉ ((r.foldl failOnce (tryConnect t c).1).log.map slotOf) := by
        intro t t1 t2 t3 t4 t5 t6 t7 t8 t9 t10
        have hc : check t = (t, false) := by unfold check; simp [t5]
        have hp : profileOf t 1 = some ⟨1, 1, true, 0⟩ := by unfold profileOf; rw [t2, t3]; decide
        have hi : priorityOf t 1 = some 0 := by unfold priorityOf; rw [t1]; decide
        have ha : activeSlot t = some 1 := by unfold activeSlot; rw [t1, t6]; rfl
        cases c with
        | true =>
          simp only [tryConnect, hc, Bool.false_eq_true, if_false, ha, t9, Option.getD_some, tryWith, hp, hi,
            Bool.and_self, if_true]
          apply ih
          · exact t1
          · exact t2
          · exact t3
          · exact t4
          · exact t5
          · rfl
          · rfl
          · exact .inl t8
          · simpa [slotOf] using t10
        | false =>
          simp only [tryConnect, hc, Bool.false_eq_true, if_false, ha, t9, Option.getD_some, tryWith, hp, hi,
            Bool.and_false, t4, if_true]
          apply ih
          · exact t1
          · exact t2
          · exact t3
          · rfl
          · exact t5
          · exact t6
          · exact t7
          · exact .inr rfl
          · simpa [slotOf] using t10
      have hnext : ∀ t : S, t.slots = [1, 1, 2] → nextSlot t 1 = some 1 := by
        intro t ht; unfold nextSlot priorityOf; rw [ht]; decide
      rcases h8 with h8 | h8
      · have ha : activeSlot s = some 1 := by unfold activeSlot; rw [h1, h6]; rfl
        rw [stop_fire c h8 h7 h4 ha (hnext _ h1)]
        exact main _ h1 h2 h3 h4 h5 h6 rfl rfl rfl h9
      · unfold failOnce
        simp only [h8, Option.isSome_some, if_true, step, fire]
        rw [hnext _ h1]
        exact main _ h1 h2 h3 h4 h5 h6 h7 rfl rfl h9
  exact key cfgs _ (by decide) (by decide) (by decide) (by decide) (by decide) (by decide) (by decide) (.inl (by decide)) (by decide)

/-! ### C89: when connections are opened -/

/-- Connections are opened by `connect` and by the timer only. -/
def Opens : Ev → Prop
  | .attempt _ | .unusable _ => True
  | _ => False

theorem check_log (s : S) : (check s).1.log = s.log := (check_frame s).2.2.1

theorem confirm_frame (s : S) (ok : Bool) : (∃ evs, (confirm s ok).1.log = s.log ++ evs ∧ ∀ ev ∈ evs, ¬ Opens ev) ∧
    (confirm s ok).1.wants = s.wants ∧ (confirm s ok).1.timer = s.timer ∧ (confirm s ok).1.ws = s.ws := by
  unfold confirm
  cases ha : activeSlot s with
  | none => exact ⟨⟨[], by simp, by simp⟩, rfl, rfl, rfl⟩
  | some a =>
    simp only
    obtain ⟨_, _, f3, f4, _, _, _, _, f9, f10, _⟩ := check_frame (prune (setLevel s a ok))
    obtain ⟨_, _, _, e4, _, _, _, e8, e9, _⟩ := setLevel_frame s a ok
    rw [f3, f4, f9, f10]
    refine ⟨?_, e8, e9, e4⟩
    unfold prune setLevel
    simp only
    split
    · exact ⟨[], by simp, by simp⟩
    · split
      · exact ⟨_, rfl, by simp [Opens]⟩
      · exact ⟨[], by simp, by simp⟩

/-- Without a timer, nothing but `connect` opens a connection. -/
theorem step_quiet (s : S) (op : Op) (ht : s.timer = none) (hop : ∀ slot cfg, op ≠ .connect slot cfg) :
    (∃ evs, (step s op).1.log = s.log ++ evs ∧ ∀ ev ∈ evs, ¬ Opens ev) ∧
    (s.wants = false → (step s op).1.wants = false ∧ (step s op).1.timer = none) ∧
    ((∀ r, op ≠ .wsStopped r) → (step s op).1.timer = none) ∧
    ((∀ r, op ≠ .wsStopped r) → op ≠ .wsDown → op ≠ .restart → s.ws = some true → (step s op).1.ws = some true) := by
  cases op with
  | connect slot cfg => exact absurd rfl (hop slot cfg)
  | disconnect => exact ⟨⟨[], by simp [step, disconnect], by simp⟩, fun _ => ⟨rfl, rfl⟩, fun _ => rfl, fun _ _ _ h => h⟩
  | confirm ok =>
    simp only [step]
    split
    · obtain ⟨a, b, c, d⟩ := confirm_frame s ok
      exact ⟨a, fun h => ⟨b.trans h, c.trans ht⟩, fun _ => c.trans ht, fun _ _ _ h => d.trans h⟩
    · exact ⟨⟨[], by simp, by simp⟩, fun h => ⟨h, ht⟩, fun _ => ht, fun _ _ _ h => h⟩
  | fire cfg =>
    simp only [step, fire, ht]
    exact ⟨⟨[], by simp, by simp⟩, fun h => ⟨h, trivial⟩, fun _ => trivial, fun _ _ _ h => h⟩
  | wsUp r ok =>
    simp only [step]
    split
    · unfold wsUp
      simp only
      split
      · exact ⟨⟨[], by simp, by simp⟩, fun h => ⟨h, ht⟩, fun _ => ht, fun _ _ _ _ => rfl⟩
      · split
        · obtain ⟨a, b, c, d⟩ := confirm_frame { s with ws := some true } ok
          exact ⟨a, fun h => ⟨b.trans h, c.trans ht⟩, fun _ => c.trans ht, fun _ _ _ _ => d⟩
        · exact ⟨⟨[], by simp, by simp⟩, fun h => ⟨h, ht⟩, fun _ => ht, fun _ _ _ _ => rfl⟩
    · exact ⟨⟨[], by simp, by simp⟩, fun h => ⟨h, ht⟩, fun _ => ht, fun _ _ _ h => h⟩
  | wsDown =>
    simp only [step]
    split
    · exact ⟨⟨[], by simp [wsDown], by simp⟩, fun h => ⟨h, ht⟩, fun _ => ht, fun _ h => absurd rfl h⟩
    · exact ⟨⟨[], by simp, by simp⟩, fun h => ⟨h, ht⟩, fun _ => ht, fun _ h => absurd rfl h⟩
  | wsStopped r =>
    simp only [step]
    refine ⟨?_, ?_, fun h => absurd rfl (h r), fun h => absurd rfl (h r)⟩
    · split
      · unfold wsStopped
        simp only
        split
        · exact ⟨[], by simp, by simp⟩
        · split <;> exact ⟨[], by simp, by simp⟩
      · exact ⟨[], by simp, by simp⟩
    · intro hw
      split
      · unfold wsStopped
        simp only
        split
        · exact ⟨hw, ht⟩
        · split
          · rename_i hw'
            exact absurd (hw.symm.trans hw') (by simp)
          · exact ⟨hw, ht⟩
      · exact ⟨hw, ht⟩
  | setOptions =>
    simp only [step, setOptions]
    split
    · exact ⟨⟨[], by simp, by simp⟩, fun h => ⟨h, ht⟩, fun _ => ht, fun _ _ _ h => h⟩
    · split
      · exact ⟨⟨[], by simp, by simp⟩, fun h => ⟨h, ht⟩, fun _ => ht, fun _ _ _ h => h⟩
      · split
        · exact ⟨⟨_, rfl, by simp [Opens]⟩, fun h => ⟨h, ht⟩, fun _ => ht, fun _ _ _ h => h⟩
        · exact ⟨⟨[], by simp, by simp⟩, fun h => ⟨h, ht⟩, fun _ => ht, fun _ _ _ h => h⟩
  | reconnect =>
    simp only [step, reconnect]
    split
    · exact ⟨⟨[], by simp, by simp⟩, fun h => ⟨h, ht⟩, fun _ => ht, fun _ _ _ h => h⟩
    · exact ⟨⟨_, rfl, by simp [Opens]⟩, fun h => ⟨h, ht⟩, fun _ => ht, fun _ _ _ h => h⟩
  | setNetworkProfile p cb w =>
    simp only [step, setNetworkProfile]
    split
    · exact ⟨⟨[], by simp, by simp⟩, fun h => ⟨h, ht⟩, fun _ => ht, fun _ _ _ h => h⟩
    · split
      · exact ⟨⟨[], by simp, by simp⟩, fun h => ⟨h, ht⟩, fun _ => ht, fun _ _ _ h => h⟩
      · split
        · exact ⟨⟨[], by simp, by simp⟩, fun h => ⟨h, ht⟩, fun _ => ht, fun _ _ _ h => h⟩
        · split
          · exact ⟨⟨[], by simp, by simp⟩, fun h => ⟨h, ht⟩, fun _ => ht, fun _ _ _ h => h⟩
          · exact ⟨⟨_, rfl, by simp [Opens]⟩, fun h => ⟨h, ht⟩, fun _ => ht, fun _ _ _ h => h⟩
  | setProfiles l => exact ⟨⟨[], by simp [step], by simp⟩, fun h => ⟨h, ht⟩, fun _ => ht, fun _ _ _ h => h⟩
  | setPriority l => exact ⟨⟨[], by simp [step], by simp⟩, fun h => ⟨h, ht⟩, fun _ => ht, fun _ _ _ h => h⟩
  | setAllowZero b => exact ⟨⟨[], by simp [step], by simp⟩, fun h => ⟨h, ht⟩, fun _ => ht, fun _ _ _ h => h⟩
  | restart => exact ⟨⟨[], by simp [step, restart], by simp⟩, fun _ => ⟨rfl, rfl⟩, fun _ => rfl, fun _ _ h => absurd rfl h⟩

/-- C89: after `disconnect` the station opens no connection until `connect` is called again. -/
theorem C89_disconnect (s : S) (ops : List Op) (hops : ∀ op ∈ ops, ∀ slot cfg, op ≠ .connect slot cfg) :
    ∃ evs, (run s (.disconnect :: ops)).log = s.log ++ evs ∧
      (∀ p, .attempt p ∉ evs) ∧ (∀ x, .unusable x ∉ evs) := by
  have key : ∀ (ops : List Op) (s : S), (∀ op ∈ ops, ∀ slot cfg, op ≠ .connect slot cfg) → s.wants = false → s.timer = none →
      ∃ evs, (run s ops).log = s.log ++ evs ∧ ∀ ev ∈ evs, ¬ Opens ev := by
    intro ops
    induction ops with
    | nil => intro s _ _ _; exact ⟨[], by simp [run], by simp⟩
    | cons op r ih =>
      intro s ho hw ht
      obtain ⟨⟨e1, h1, h2⟩, h3, _⟩ := step_quiet s op ht (ho op (List.mem_cons_self ..))
      obtain ⟨e2, h4, h5⟩ := ih (step s op).1 (fun o h => ho o (List.mem_cons_of_mem _ h)) (h3 hw).1 (h3 hw).2
      refine ⟨e1 ++ e2, ?_, ?_⟩
      · have : run s (op :: r) = run (step s op).1 r := rfl
        rw [this, h4, h1, List.append_assoc]
      · intro ev hev
        rcases List.mem_append.mp hev with h | h
        · exact h2 ev h
        · exact h5 ev h
  obtain ⟨evs, h1, h2⟩ := key ops (disconnect s).1 hops rfl rfl
  exact ⟨evs, h1, fun p hp => h2 _ hp trivial, fun x hx => h2 _ hx trivial⟩

/-- C89: while connected, the station opens no other connection, unless the connection is lost; partial: if no
retry is pending when it is established; see `C89_violated`. -/
theorem C89_partial (s : S) (hw : s.ws = some true) (ht : s.timer = none) (ops : List Op)
    (hops : ∀ op ∈ ops, (∀ r, op ≠ .wsStopped r) ∧ op ≠ .wsDown ∧ op ≠ .restart) :
    ∃ evs, (run s ops).log = s.log ++ evs ∧ (∀ p, .attempt p ∉ evs) ∧ (∀ x, .unusable x ∉ evs) := by
  have key : ∀ (ops : List Op) (s : S), s.ws = some true → s.timer = none →
      (∀ op ∈ ops, (∀ r, op ≠ .wsStopped r) ∧ op ≠ .wsDown ∧ op ≠ .restart) →
      ∃ evs, (run s ops).log = s.log ++ evs ∧ ∀ ev ∈ evs, ¬ Opens ev := by
    intro ops
    induction ops with
    | nil => intro s _ _ _; exact ⟨[], by simp [run], by simp⟩
    | cons op r ih =>
      intro s hw ht ho
      have hop := ho op (List.mem_cons_self ..)
      have : (∃ evs, (step s op).1.log = s.log ++ evs ∧ ∀ ev ∈ evs, ¬ Opens ev) ∧ (step s op).1.timer = none ∧
          (step s op).1.ws = some true := by
        by_cases hc : ∃ slot cfg, op = .connect slot cfg
        · obtain ⟨slot, cfg, rfl⟩ := hc
          simp only [step, connect]
          split
          · exact ⟨⟨[], by simp, by simp⟩, ht, hw⟩
          · split
            · exact ⟨⟨[], by simp, by simp⟩, ht, hw⟩
            · split
              · exact ⟨⟨[], by simp, by simp⟩, ht, hw⟩
              · rw [if_pos (by rw [hw]; rfl)]
                exact ⟨⟨[], by simp, by simp⟩, ht, hw⟩
        · obtain ⟨h1, _, h3, h4⟩ := step_quiet s op ht (fun slot cfg h => hc ⟨slot, cfg, h⟩)
          exact ⟨h1, h3 hop.1, h4 hop.1 hop.2.1 hop.2.2 hw⟩
      obtain ⟨⟨e1, h1, h2⟩, h3, h4⟩ := this
      obtain ⟨e2, h5, h6⟩ := ih (step s op).1 h4 h3 (fun o h => ho o (List.mem_cons_of_mem _ h))
      refine ⟨e1 ++ e2, ?_, ?_⟩
      · have : run s (op :: r) = run (step s op).1 r := rfl
        rw [this, h5, h1, List.append_assoc]
      · intro ev hev
        rcases List.mem_append.mp hev with h | h
        · exact h2 ev h
        · exact h6 ev h
  obtain ⟨evs, h1, h2⟩ := key ops s hw ht hops
  exact ⟨evs, h1, fun p hp => h2 _ hp trivial, fun x hx => h2 _ hx trivial⟩

/-- Non-vacuity of `C89_partial`: connected, then confirmed. -/
example : (run ex [.connect none true, .wsUp false true]).ws = some true ∧ (run ex [.connect none true, .wsUp false true]).timer = none := by
  decide

/-- C89 is violated: `connect` while a retry is pending does not stop the timer.  The connection it opens is
established, and then replaced by one with the next slot. -/
theorem C89_violated :
    let s := run ex [.connect none true, .wsStopped false, .connect (some 1) true, .wsUp false true]
    s.ws = some true ∧ s.cur = some ⟨1, 1, true, 0⟩ ∧
    (step s (.fire true)).1.log = s.log ++ [.attempt ⟨2, 2, true, 0⟩] := by
  decide

/-! ### C90: SetNetworkProfile and NetworkConfigurationPriority -/

/-- C90: SetNetworkProfile is Accepted exactly if the application validates the profile, its security profile is
not lower than the current one and the list can be written; then, and only then, the list of profiles is
changed: the slot has the new profile, the others are as before. -/
theorem C90_profile (s : S) (p : Prof) (cb : Option Bool) (w : Bool) :
    ((setNetworkProfile s p cb w).1 = true ↔ cb = some true ∧ s.dmSec ≤ p.sec ∧ w = true) ∧
    ((setNetworkProfile s p cb w).1 = false → (setNetworkProfile s p cb w).2 = s) ∧
    ((setNetworkProfile s p cb w).1 = true → p ∈ (setNetworkProfile s p cb w).2.dmProfiles ∧
      (setNetworkProfile s p cb w).2.dmProfiles.filter (fun q => q.slot != p.slot) =
        s.dmProfiles.filter (fun q => q.slot != p.slot)) := by
  have hstore : p ∈ store p s.dmProfiles ∧ (store p s.dmProfiles).filter (fun q => q.slot != p.slot) =
      s.dmProfiles.filter (fun q => q.slot != p.slot) := by
    unfold store
    split
    · rename_i hany
      split
      · rename_i i hi
        rw [List.findIdx?_eq_some_iff_getElem] at hi
        obtain ⟨hlt, hslot, _⟩ := hi
        rw [List.length_reverse] at hlt
        rw [List.getElem_reverse] at hslot
        have hlt2 : s.dmProfiles.length - 1 - i < s.dmProfiles.length := by omega
        refine ⟨List.mem_set hlt2 p, ?_⟩
        have hset : ∀ (l : List Prof) (j : Nat) (hj : j < l.length), ((l[j]'hj).slot == p.slot) = true →
            (l.set j p).filter (fun q => q.slot != p.slot) = l.filter (fun q => q.slot != p.slot) := by
          intro l
          induction l with
          | nil => intro j hj; simp at hj
          | cons x r ih =>
            intro j hj hs
            cases j with
            | zero =>
              simp only [List.getElem_cons_zero, beq_iff_eq] at hs
              simp [hs]
            | succ k =>
              simp only [List.getElem_cons_succ] at hs
              simp only [List.set_cons_succ, List.filter_cons]
              rw [ih k (by simpa using hj) hs]
        exact hset _ _ hlt2 hslot
      · rename_i hnone
        rw [List.findIdx?_eq_none_iff] at hnone
        obtain ⟨q, hq, hs⟩ := List.any_eq_true.mp hany
        have := hnone q (List.mem_reverse.mpr hq)
        rw [this] at hs; simp at hs
    · exact ⟨by simp, by simp [List.filter_append]⟩
  unfold setNetworkProfile
  cases cb with
  | none => simp
  | some valid =>
    by_cases h1 : p.sec < s.dmSec
    · have h1' : ¬ s.dmSec ≤ p.sec := by omega
      simp [h1, h1']
    · have h1' : s.dmSec ≤ p.sec := by omega
      cases valid with
      | false => simp [h1, h1']
      | true =>
        cases w with
        | false => simp [h1, h1']
        | true => simp [h1, h1']; exact hstore

/-- What may be written to NetworkConfigurationPriority: slots with a profile; for security profiles above the
current one the certificates they need are installed. -/
def UsableSlot (s : S) (c : Certs) (e : Elem) : Prop :=
  ∃ n p, e = .num n ∧ rawProfile s.dmProfiles n = some p ∧
    (s.dmSec < p.sec → (p.sec = 3 → c.leaf = true) ∧ (2 ≤ p.sec → c.root = true))

/-- C90: a value for NetworkConfigurationPriority passes exactly if all its slots are usable; partial: numbers
beyond the range of `int` escape as an exception, see `C90_violated`. -/
theorem C90_partial (s : S) (c : Certs) (l : List Elem) :
    validPriority s c l = .valid ↔ ∀ e ∈ l, UsableSlot s c e := by
  induction l with
  | nil => simp [validPriority]
  | cons e r ih =>
    simp only [validPriority, List.forall_mem_cons]
    by_cases hnil : s.dmProfiles = []
    · simp only [hnil, if_true]
      constructor
      · simp
      · rintro ⟨⟨n, p, _, h, _⟩, _⟩
        rw [hnil] at h; simp [rawProfile] at h
    · rw [if_neg hnil]
      cases e with
      | invalid => constructor
                   · simp
                   · rintro ⟨⟨n, p, h, _⟩, _⟩; simp at h
      | tooLarge => constructor
                    · simp
                    · rintro ⟨⟨n, p, h, _⟩, _⟩; simp at h
      | num n =>
        simp only
        cases hp : rawProfile s.dmProfiles n with
        | none =>
          constructor
          · simp
          · rintro ⟨⟨m, p, h, h2, _⟩, _⟩
            injection h with h; subst h; rw [hp] at h2; simp at h2
        | some p =>
          have hu : UsableSlot s c (.num n) ↔ (s.dmSec < p.sec → (p.sec = 3 → c.leaf = true) ∧ (2 ≤ p.sec → c.root = true)) := by
            constructor
            · rintro ⟨m, q, h, h2, h3⟩
              injection h with h; subst h; rw [hp] at h2; injection h2 with h2; subst h2; exact h3
            · intro h; exact ⟨n, p, rfl, hp, h⟩
          rw [hu, ← ih]
          simp only
          by_cases h1 : p.sec ≤ s.dmSec
          · rw [if_pos h1]
            exact ⟨fun h => ⟨fun h2 => by omega, h⟩, fun h => h.2⟩
          · rw [if_neg h1]
            have h1' : s.dmSec < p.sec := by omega
            by_cases h3 : p.sec = 3 <;> by_cases h2 : 2 ≤ p.sec <;> cases hl : c.leaf <;> cases hr : c.root <;>
              simp [h3, h2, h1'] <;> (try omega)

/-- C90 is violated: a slot number beyond the range of `int` throws an exception that is not handled. -/
theorem C90_violated : validPriority ex ⟨true, true⟩ [.tooLarge] = .throws := by decide

/-- Non-vacuity of `C90_partial`. -/
example : validPriority ex ⟨false, true⟩ [.num 2, .num 1] = .valid ∧ validPriority ex ⟨false, true⟩ [.num 3] = .invalid ∧
    validPriority ex ⟨false, true⟩ [.num 4] = .invalid := by decide

end Verif.Con
