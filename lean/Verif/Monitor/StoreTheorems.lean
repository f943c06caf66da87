import Verif.Monitor.Store
import Verif.Monitor.FloatText
import Verif.DeviceModel.Theorems
/-
Properties of the monitors of variables: memory and database (C77), protection (C78), answers of
SetVariableMonitoring (C79, C80), reports (C81).
-/
set_option linter.constructorNameAsVariable false

namespace Verif.Mon

open Verif.DM (Str Comp Vbl DataType Chars exDM exInterval)

/-! ### Vocabulary -/

/-- What a running station and its database know about monitors is consistent: the same monitors, ids used
once, none beyond the sequence, all on existing variables. -/
structure Good (s : Store) : Prop where
  agree : ∀ x, x ∈ s.mem ↔ x ∈ s.rows
  ids : ∀ x ∈ s.rows, ∀ y ∈ s.rows, x.mon.id = y.mon.id → x = y
  bound : ∀ x ∈ s.rows, x.mon.id ≤ s.seq
  known : ∀ x ∈ s.rows, ∃ e ∈ s.dm, e.comp = x.comp ∧ e.var = x.var

/-- A request that names a monitor names it with the variable it belongs to. -/
def Own (s : Store) (q : Request) : Prop :=
  ∀ x ∈ s.mem, q.id = some x.mon.id → x.comp = q.comp ∧ x.var = q.var

/-- All requests of a history do. -/
def Proper : Store → List Op → Prop
  | _, [] => True
  | s, op :: r => (∀ q, op = .set q → Own s q) ∧ Proper (step s op) r

/-! ### Lemmas -/

theorem find_isSome (dm : Verif.DM.DM) (c : Comp) (v : Vbl) :
    (Verif.DM.find dm c v).isSome = true ↔ ∃ e ∈ dm, e.comp = c ∧ e.var = v := by
  simp only [Verif.DM.find, List.find?_isSome, Bool.and_eq_true, beq_iff_eq]

theorem setValue_known (dm : Verif.DM.DM) (c : Comp) (v : Vbl) (val : Str) (c' : Comp) (v' : Vbl) :
    (∃ e ∈ (Verif.DM.setValue dm c v .actual val true).2, e.comp = c' ∧ e.var = v') ↔
      ∃ e ∈ dm, e.comp = c' ∧ e.var = v' := by
  rw [Verif.DM.setValue_state]
  split
  · simp only [Verif.DM.store, List.mem_map]
    constructor
    · rintro ⟨_, ⟨e, he, rfl⟩, h1, h2⟩
      refine ⟨e, he, ?_, ?_⟩
      · split at h1 <;> exact h1
      · split at h2 <;> exact h2
    · rintro ⟨e, he, h1, h2⟩
      refine ⟨_, ⟨e, he, rfl⟩, ?_, ?_⟩
      · split <;> exact h1
      · split <;> exact h2
  · rfl

theorem data_none (kind : Kind) (s : Store) (q : Request)
    (h : (q.type == .delta && (actualValue s.dm q.comp q.var) == none) = true) : setMonitoringData s q kind = none := by
  simp only [setMonitoringData]; rw [if_pos h]

theorem data_some (kind : Kind) (s : Store) (q : Request)
    (h : (q.type == .delta && (actualValue s.dm q.comp q.var) == none) = false) :
    setMonitoringData s q kind = some (newMeta s q kind (q.id.getD (s.seq + 1)), { s with
      rows := s.rows.filter (fun r => r.mon.id != q.id.getD (s.seq + 1)) ++
        [⟨q.comp, q.var, newMeta s q kind (q.id.getD (s.seq + 1))⟩],
      seq := max s.seq (q.id.getD (s.seq + 1)) }) := by
  simp only [setMonitoringData]; rw [if_neg (by rw [h]; simp)]

/-- What an accepted item does. -/
theorem setOne_accepted (kind : Kind) (s : Store) (q : Request) (h : (setOne kind s q).1 = .accepted) :
    ∃ e, Verif.DM.find s.dm q.comp q.var = some e ∧
    validMonitor e.chars (Verif.DM.allowZero q.comp q.var) q = true ∧
    (∀ i, q.id = some i → idFound s i = true) ∧ (q.id = none → isDuplicate s q = false) ∧
    (q.type = .delta → actualValue s.dm q.comp q.var ≠ none) ∧
    (setOne kind s q).2.1 = some (q.id.getD (s.seq + 1)) ∧
    (setOne kind s q).2.2 = { s with
      rows := s.rows.filter (fun r => r.mon.id != q.id.getD (s.seq + 1)) ++
        [⟨q.comp, q.var, newMeta s q kind (q.id.getD (s.seq + 1))⟩],
      seq := max s.seq (q.id.getD (s.seq + 1)),
      mem := setMem s.mem ⟨q.comp, q.var, newMeta s q kind (q.id.getD (s.seq + 1))⟩ } := by
  cases h1 : idUnknown s q with
  | true => simp [setOne, h1] at h
  | false =>
    have hid : ∀ i, q.id = some i → idFound s i = true := by
      intro i hi; simpa [idUnknown, hi] using h1
    cases h2 : Verif.DM.hasComp s.dm q.comp with
    | false => simp only [setOne, h1, h2] at h; simp at h; split at h <;> simp at h
    | true =>
      cases h3 : Verif.DM.find s.dm q.comp q.var with
      | none => simp only [setOne, h1, h2, h3] at h; simp at h; split at h <;> simp at h
      | some e =>
        cases h4 : validMonitor e.chars (Verif.DM.allowZero q.comp q.var) q with
        | false => simp [setOne, h1, h2, h3, h4] at h
        | true =>
          cases h5 : (q.id.isNone && isDuplicate s q) with
          | true => simp [setOne, h1, h2, h3, h4, h5] at h
          | false =>
            cases h6 : (q.type == .delta && (actualValue s.dm q.comp q.var) == none) with
            | true => simp [setOne, h1, h2, h3, h4, h5, data_none kind s q h6] at h
            | false =>
              refine ⟨e, rfl, h4, hid, ?_, ?_, ?_, ?_⟩
              · intro hn; rw [hn] at h5; simpa using h5
              · intro hd hn; rw [hd, hn] at h6; simp at h6
              · simp [setOne, h1, h2, h3, h4, h5, data_some kind s q h6, newMeta]
              · simp [setOne, h1, h2, h3, h4, h5, data_some kind s q h6]

theorem setOne_refused (kind : Kind) (s : Store) (q : Request) (h : (setOne kind s q).1 ≠ .accepted) :
    (setOne kind s q).2.2 = s ∧ (setOne kind s q).2.1 = q.id := by
  unfold setOne at h ⊢
  split
  · exact ⟨rfl, rfl⟩
  · rename_i h1
    rw [if_neg h1] at h
    split
    · exact ⟨rfl, rfl⟩
    · rename_i h2
      rw [if_neg h2] at h
      cases h3 : Verif.DM.find s.dm q.comp q.var with
      | none => exact ⟨rfl, rfl⟩
      | some e =>
        simp only [h3] at h ⊢
        split
        · exact ⟨rfl, rfl⟩
        · rename_i h4
          rw [if_neg h4] at h
          split
          · exact ⟨rfl, rfl⟩
          · rename_i h5
            rw [if_neg h5] at h
            cases h6 : setMonitoringData s q kind with
            | none => exact ⟨rfl, rfl⟩
            | some r => simp only [h6] at h; exact absurd rfl h

theorem Good.set {s : Store} (g : Good s) (kind : Kind) (q : Request) (ho : Own s q) :
    Good (setOne kind s q).2.2 := by
  by_cases h : (setOne kind s q).1 = .accepted
  · obtain ⟨e, h1, _, h3, _, _, _, h7⟩ := setOne_accepted kind s q h
    obtain ⟨he, hec, hev⟩ := Verif.DM.find_some h1
    rw [h7]
    -- monitors of this id are on this variable
    have hown : ∀ x ∈ s.rows, x.mon.id = q.id.getD (s.seq + 1) → x.comp = q.comp ∧ x.var = q.var := by
      intro x hx hi
      cases hq : q.id with
      | none => rw [hq] at hi; have := g.bound x hx; simp at hi; omega
      | some i =>
        rw [hq] at hi
        exact ho x ((g.agree x).mpr hx) (by rw [hq, hi]; rfl)
    refine ⟨?_, ?_, ?_, ?_⟩
    · intro x
      simp only [setMem, List.mem_append, List.mem_filter, List.mem_singleton, Bool.not_eq_true',
        Bool.and_eq_false_iff, beq_eq_false_iff_ne, newMeta, bne_iff_ne, g.agree x]
      constructor
      · rintro (⟨hx, hn⟩ | hx)
        · refine .inl ⟨hx, fun hi => ?_⟩
          obtain ⟨k1, k2⟩ := hown x hx hi
          rcases hn with (hn | hn) | hn
          · exact hn k1
          · exact hn k2
          · exact hn hi
        · exact .inr hx
      · rintro (⟨hx, hn⟩ | hx)
        · exact .inl ⟨hx, .inr hn⟩
        · exact .inr hx
    · intro x hx y hy hxy
      simp only [List.mem_append, List.mem_filter, List.mem_singleton, bne_iff_ne] at hx hy
      rcases hx with ⟨hx, hxi⟩ | rfl
      · rcases hy with ⟨hy, _⟩ | rfl
        · exact g.ids x hx y hy hxy
        · exact absurd hxy hxi
      · rcases hy with ⟨hy, hyi⟩ | rfl
        · exact absurd hxy.symm hyi
        · rfl
    · intro x hx
      simp only [List.mem_append, List.mem_filter, List.mem_singleton] at hx
      rcases hx with ⟨hx, _⟩ | rfl
      · have := g.bound x hx
        show x.mon.id ≤ max s.seq _
        omega
      · show q.id.getD (s.seq + 1) ≤ max s.seq _
        omega
    · intro x hx
      simp only [List.mem_append, List.mem_filter, List.mem_singleton] at hx
      rcases hx with ⟨hx, _⟩ | rfl
      · exact g.known x hx
      · exact ⟨e, he, hec, hev⟩
  · rw [(setOne_refused kind s q h).1]; exact g

theorem Good.clear {s : Store} (g : Good s) (p : Bool) (i : Nat) : Good (clearOne p s i).2 := by
  unfold clearOne
  split
  · exact g
  · split
    · rename_i h1 h2
      obtain ⟨r, hr, hri⟩ := List.any_eq_true.mp h2
      simp only [Bool.and_eq_true, beq_iff_eq] at hri
      have key : ∀ x ∈ s.rows, (x.mon.id == i && (p || x.mon.kind == .custom)) = true ↔ x.mon.id = i := by
        intro x hx
        simp only [Bool.and_eq_true, beq_iff_eq]
        refine ⟨fun h => h.1, fun h => ⟨h, ?_⟩⟩
        have := g.ids x hx r hr (h.trans hri.1.symm)
        rw [this]; exact hri.2
      have kept : ∀ x, x ∈ s.rows.filter (fun r => !(r.mon.id == i && (p || r.mon.kind == .custom))) ↔
          x ∈ s.rows ∧ x.mon.id ≠ i := by
        intro x
        rw [List.mem_filter]
        refine and_congr_right fun hx => ?_
        rw [Bool.not_eq_true', ← Bool.not_eq_true, key x hx]
      refine ⟨?_, ?_, ?_, ?_⟩
      · intro x
        rw [kept, List.mem_filter, g.agree x, bne_iff_ne]
      · intro x hx y hy; exact g.ids x ((kept x).mp hx).1 y ((kept y).mp hy).1
      · intro x hx; exact g.bound x ((kept x).mp hx).1
      · intro x hx; exact g.known x ((kept x).mp hx).1
    · exact g

theorem Good.clearCustom {s : Store} (g : Good s) : Good (clearCustom s) := by
  refine ⟨?_, ?_, ?_, ?_⟩
  · intro x; simp only [Mon.clearCustom, List.mem_filter, g.agree x]
  · intro x hx y hy; exact g.ids x (List.mem_filter.mp hx).1 y (List.mem_filter.mp hy).1
  · intro x hx; exact g.bound x (List.mem_filter.mp hx).1
  · intro x hx; exact g.known x (List.mem_filter.mp hx).1

theorem setRef_id (i : Nat) (v : Str) (x : Item) : (setRef i v x).mon.id = x.mon.id := by
  unfold setRef; split <;> rfl

theorem setRef_place (i : Nat) (v : Str) (x : Item) : (setRef i v x).comp = x.comp ∧ (setRef i v x).var = x.var := by
  unfold setRef; split <;> exact ⟨rfl, rfl⟩

theorem Good.reference {s : Store} (g : Good s) (i : Nat) (v : Str) : Good (updateReference s i v) := by
  unfold updateReference
  cases hf : s.mem.find? (fun x => x.mon.id == i) with
  | none => exact g
  | some x =>
    simp only
    split
    · have hx : x ∈ s.mem := List.mem_of_find?_eq_some hf
      have hi : x.mon.id = i := by simpa using List.find?_some hf
      have same : ∀ y ∈ s.mem, (if (y == x) = true then setRef i v y else y) = setRef i v y := by
        intro y hy
        by_cases h : y = x
        · simp [h]
        · have : y.mon.id ≠ i := by
            intro hyi
            exact h (g.ids y ((g.agree y).mp hy) x ((g.agree x).mp hx) (hyi.trans hi.symm))
          simp [h, setRef, this]
      refine ⟨?_, ?_, ?_, ?_⟩
      · intro z
        simp only [List.mem_map]
        constructor
        · rintro ⟨y, hy, rfl⟩
          exact ⟨y, (g.agree y).mp hy, (same y hy).symm⟩
        · rintro ⟨y, hy, rfl⟩
          exact ⟨y, (g.agree y).mpr hy, same y ((g.agree y).mpr hy)⟩
      · intro a ha b hb hab
        simp only [List.mem_map] at ha hb
        obtain ⟨a', ha', rfl⟩ := ha
        obtain ⟨b', hb', rfl⟩ := hb
        rw [setRef_id, setRef_id] at hab
        rw [g.ids a' ha' b' hb' hab]
      · intro a ha
        simp only [List.mem_map] at ha
        obtain ⟨a', ha', rfl⟩ := ha
        rw [setRef_id]; exact g.bound a' ha'
      · intro a ha
        simp only [List.mem_map] at ha
        obtain ⟨a', ha', rfl⟩ := ha
        rw [(setRef_place i v a').1, (setRef_place i v a').2]; exact g.known a' ha'
    · exact g

theorem Good.restart {s : Store} (g : Good s) : Good (restart s) := by
  refine ⟨?_, g.ids, g.bound, g.known⟩
  intro x
  simp only [Mon.restart, List.mem_filter, find_isSome]
  exact ⟨fun h => h.1, fun h => ⟨h, g.known x h⟩⟩

theorem Good.step {s : Store} (g : Good s) (op : Op) (h : ∀ q, op = .set q → Own s q) : Good (step s op) := by
  cases op with
  | set q => exact g.set .custom q (h q rfl)
  | clear i => exact g.clear false i
  | base st b =>
    simp only [Mon.step, setBase]
    split
    · exact g
    · split
      · exact g.clearCustom
      · exact g
  | write c v val =>
    refine ⟨g.agree, g.ids, g.bound, ?_⟩
    intro x hx
    exact (setValue_known s.dm c v val x.comp x.var).mpr (g.known x hx)
  | reference i v => exact g.reference i v
  | restart => exact g.restart

/-! ### C77: memory and database agree -/

/-- C77: whatever requests, writes and restarts occur, the station monitors exactly what the database
contains; every id is that of one monitor only.  Partial: if requests that name a monitor name the variable
it belongs to; see `C77_violated`. -/
theorem C77_partial (s : Store) (hg : Good s) (ops : List Op) (hp : Proper s ops) :
    (∀ x, x ∈ (run s ops).mem ↔ x ∈ (run s ops).rows) ∧
    (∀ x ∈ (run s ops).mem, ∀ y ∈ (run s ops).mem, x.mon.id = y.mon.id → x = y) ∧
    (∀ x, x ∈ (restart (run s ops)).mem ↔ x ∈ (run s ops).mem) := by
  have g : Good (run s ops) := by
    unfold run
    induction ops generalizing s with
    | nil => exact hg
    | cons op r ih => exact ih (step s op) (hg.step op hp.1) hp.2
  refine ⟨g.agree, ?_, ?_⟩
  · intro x hx y hy; exact g.ids x ((g.agree x).mp hx) y ((g.agree y).mp hy)
  · intro x; rw [g.restart.agree x, g.agree x]; rfl

/-- A store with the example device model and no monitors. -/
def ex0 : Store := ⟨exDM, [], [], 0⟩

theorem ex0_good : Good ex0 := ⟨by simp [ex0], by simp [ex0], by simp [ex0], by simp [ex0]⟩

/-- A periodic monitor of the heartbeat interval. -/
def exQ : Request := ⟨none, exInterval.comp, exInterval.var, 3, none, .periodic, 60⟩

/-- Non-vacuity of `C77_partial`: set a monitor, change it by its id, restart. -/
example : Proper ex0 [.set exQ, .set { exQ with id := some 1, severity := 5 }, .restart] ∧
    (run ex0 [.set exQ, .set { exQ with id := some 1, severity := 5 }, .restart]).mem =
      [⟨exInterval.comp, exInterval.var, ⟨1, 5, false, .periodic, 60, .custom, none⟩⟩] := by
  refine ⟨⟨?_, ?_, ?_, trivial⟩, by decide +kernel⟩
  · rintro q ⟨⟩ x hx; exact absurd hx (by simp [ex0])
  · rintro q ⟨⟩ x hx _
    have : x = ⟨exInterval.comp, exInterval.var, ⟨1, 3, false, .periodic, 60, .custom, none⟩⟩ := by
      have e : (step ex0 (.set exQ)).mem = [⟨exInterval.comp, exInterval.var, ⟨1, 3, false, .periodic, 60, .custom, none⟩⟩] := by
        decide +kernel
      rw [e] at hx; simpa using hx
    subst this; exact ⟨rfl, rfl⟩
  · rintro q ⟨⟩

/-- C77 is violated: a request with the id of a monitor and another variable is accepted.  In the database
the monitor moves to the other variable; in memory it then exists twice, until the next restart. -/
theorem C77_violated : ∃ (s : Store) (q : Request), Good s ∧ (setOne .custom s q).1 = .accepted ∧
    ∃ x ∈ (step s (.set q)).mem, x ∉ (step s (.set q)).rows ∧
    (∃ y ∈ (step s (.set q)).mem, y.mon.id = x.mon.id ∧ y ≠ x) ∧
    x ∉ (restart (step s (.set q))).mem := by
  refine ⟨step ex0 (.set exQ), { exQ with id := some 1, comp := Verif.DM.exPassword.comp, var := Verif.DM.exPassword.var },
    ex0_good.step _ ?_, by decide +kernel,
    ⟨exInterval.comp, exInterval.var, ⟨1, 3, false, .periodic, 60, .custom, none⟩⟩,
    by decide +kernel, by decide +kernel,
    ⟨⟨Verif.DM.exPassword.comp, Verif.DM.exPassword.var, ⟨1, 3, false, .periodic, 60, .custom, none⟩⟩,
      by decide +kernel, rfl, by decide +kernel⟩, by decide +kernel⟩
  rintro q ⟨⟩ x hx; exact absurd hx (by simp [ex0])

/-! ### C78: monitors not installed by the CSMS are protected -/

/-- The same monitor, whatever its reference value. -/
def Same (x y : Item) : Prop :=
  y.comp = x.comp ∧ y.var = x.var ∧ { y.mon with ref := x.mon.ref } = x.mon

theorem Same.refl (x : Item) : Same x x := ⟨rfl, rfl, rfl⟩

theorem Same.id {x y : Item} (h : Same x y) : y.mon.id = x.mon.id := by
  have := congrArg Meta.id h.2.2; exact this
theorem Same.kind {x y : Item} (h : Same x y) : y.mon.kind = x.mon.kind := by
  have := congrArg Meta.kind h.2.2; exact this

theorem Same.setRef {x y : Item} (h : Same x y) (i : Nat) (v : Str) : Same x (setRef i v y) := by
  unfold Mon.setRef
  split
  · exact ⟨h.1, h.2.1, h.2.2⟩
  · exact h

theorem protected_step {s : Store} {x : Item} (hk : x.mon.kind ≠ .custom)
    (h : ∃ y ∈ s.rows, Same x y) (op : Op) (ho : ∀ q, op = .set q → q.id ≠ some x.mon.id)
    (hb : ∀ y ∈ s.rows, y.mon.id ≤ s.seq) :
    ∃ y ∈ (step s op).rows, Same x y := by
  obtain ⟨y, hy, hs⟩ := h
  cases op with
  | set q =>
    by_cases ha : (setOne .custom s q).1 = .accepted
    · obtain ⟨e, _, _, _, _, _, _, h7⟩ := setOne_accepted .custom s q ha
      simp only [step, h7]
      refine ⟨y, List.mem_append_left _ (List.mem_filter.mpr ⟨hy, ?_⟩), hs⟩
      rw [bne_iff_ne]
      intro hi
      cases hq : q.id with
      | none => rw [hq] at hi; have := hb y hy; simp at hi; omega
      | some i => rw [hq] at hi; exact ho q rfl (by rw [hq, ← hs.id, hi]; rfl)
    · simp only [step, (setOne_refused .custom s q ha).1]; exact ⟨y, hy, hs⟩
  | clear i =>
    simp only [step, clearOne]
    split
    · exact ⟨y, hy, hs⟩
    · split
      · refine ⟨y, List.mem_filter.mpr ⟨hy, ?_⟩, hs⟩
        have : y.mon.kind ≠ .custom := by rw [hs.kind]; exact hk
        simp [this]
      · exact ⟨y, hy, hs⟩
  | base st b =>
    simp only [step, setBase]
    split
    · exact ⟨y, hy, hs⟩
    · split
      · refine ⟨y, List.mem_filter.mpr ⟨hy, ?_⟩, hs⟩
        have : y.mon.kind ≠ .custom := by rw [hs.kind]; exact hk
        simpa using this
      · exact ⟨y, hy, hs⟩
  | write c v val => exact ⟨y, hy, hs⟩
  | reference i v =>
    simp only [step, updateReference]
    split
    · exact ⟨y, hy, hs⟩
    · split
      · exact ⟨_, List.mem_map.mpr ⟨y, hy, rfl⟩, hs.setRef i v⟩
      · exact ⟨y, hy, hs⟩
  | restart => exact ⟨y, hy, hs⟩

/-- C78: a monitor that was not installed by the CSMS stays as it is, whatever the CSMS requests.  Partial:
unless a SetVariableMonitoring request names its id; see `C78_violated`. -/
theorem C78_partial (s : Store) (hg : Good s) (x : Item) (hx : x ∈ s.rows) (hk : x.mon.kind ≠ .custom)
    (ops : List Op) (hp : Proper s ops) (ho : ∀ q, Op.set q ∈ ops → q.id ≠ some x.mon.id) :
    ∃ y ∈ (run s ops).rows, Same x y := by
  have : ∀ (ops : List Op) (s : Store), Good s → (∃ y ∈ s.rows, Same x y) → Proper s ops →
      (∀ q, Op.set q ∈ ops → q.id ≠ some x.mon.id) → ∃ y ∈ (run s ops).rows, Same x y := by
    intro ops
    induction ops with
    | nil => intro s _ h _ _; exact h
    | cons op r ih =>
      intro s g h hp ho
      exact ih (step s op) (g.step op hp.1)
        (protected_step hk h op (fun q hq => ho q (by rw [hq]; simp)) g.bound) hp.2
        (fun q hq => ho q (by simp [hq]))
  exact this ops s hg ⟨x, hx, Same.refl x⟩ hp ho

/-- C78: ClearVariableMonitoring is answered NotFound if there is no such monitor, Rejected if the CSMS did
not install it, else Accepted; after that there is no monitor with that id, and the others are untouched. -/
theorem C78_clear (s : Store) (hg : Good s) (i : Nat) :
    ((clearOne false s i).1 = .notFound ↔ ¬ ∃ x ∈ s.mem, x.mon.id = i) ∧
    ((clearOne false s i).1 = .rejected ↔ ∃ x ∈ s.mem, x.mon.id = i ∧ x.mon.kind ≠ .custom) ∧
    ((clearOne false s i).1 = .accepted ↔ ∃ x ∈ s.mem, x.mon.id = i ∧ x.mon.kind = .custom) ∧
    (∀ x, x ∈ (clearOne false s i).2.mem ↔
      x ∈ s.mem ∧ ((clearOne false s i).1 = .accepted → x.mon.id ≠ i)) := by
  have h1 : (s.rows.any fun r => r.mon.id == i) = true ↔ ∃ x ∈ s.mem, x.mon.id = i := by
    simp only [List.any_eq_true, beq_iff_eq]
    exact ⟨fun ⟨x, hx, h⟩ => ⟨x, (hg.agree x).mpr hx, h⟩, fun ⟨x, hx, h⟩ => ⟨x, (hg.agree x).mp hx, h⟩⟩
  have h2 : (s.rows.any fun r => r.mon.id == i && (false || r.mon.kind == .custom)) = true ↔
      ∃ x ∈ s.mem, x.mon.id = i ∧ x.mon.kind = .custom := by
    simp only [List.any_eq_true, Bool.and_eq_true, Bool.or_eq_true, beq_iff_eq, Bool.false_eq_true, false_or]
    exact ⟨fun ⟨x, hx, h⟩ => ⟨x, (hg.agree x).mpr hx, h⟩, fun ⟨x, hx, h⟩ => ⟨x, (hg.agree x).mp hx, h⟩⟩
  have huniq : ∀ x ∈ s.mem, ∀ y ∈ s.mem, x.mon.id = y.mon.id → x = y := fun x hx y hy =>
    hg.ids x ((hg.agree x).mp hx) y ((hg.agree y).mp hy)
  unfold clearOne
  by_cases a : (s.rows.any fun r => r.mon.id == i) = true
  · by_cases b : (s.rows.any fun r => r.mon.id == i && (false || r.mon.kind == .custom)) = true
    · simp only [a, b, Bool.not_true, Bool.false_eq_true, if_false, if_true]
      obtain ⟨z, hz, hzi, hzk⟩ := h2.mp b
      refine ⟨by simp [h1.mp a], ?_, by simpa using h2.mp b, ?_⟩
      · constructor
        · intro h; simp at h
        · rintro ⟨x, hx, hxi, hxk⟩
          have := huniq x hx z hz (hxi.trans hzi.symm)
          subst this; exact absurd hzk hxk
      · intro x; simp
    · have b' : (s.rows.any fun r => r.mon.id == i && (false || r.mon.kind == .custom)) = false := by simpa using b
      simp only [a, b', Bool.not_true, Bool.false_eq_true, if_false]
      refine ⟨by simp [h1.mp a], ?_, ?_, by simp⟩
      · obtain ⟨x, hx, hxi⟩ := h1.mp a
        simp only [true_iff]
        exact ⟨x, hx, hxi, fun hk => b (h2.mpr ⟨x, hx, hxi, hk⟩)⟩
      · constructor
        · intro h; simp at h
        · intro h; exact absurd (h2.mpr h) b
  · have a' : (s.rows.any fun r => r.mon.id == i) = false := by simpa using a
    simp only [a', Bool.not_false, if_true]
    have hno : ¬ ∃ x ∈ s.mem, x.mon.id = i := fun h => a (h1.mpr h)
    refine ⟨by simp [hno], ?_, ?_, by simp⟩
    · constructor
      · intro h; simp at h
      · rintro ⟨x, hx, hxi, _⟩; exact absurd ⟨x, hx, hxi⟩ hno
    · constructor
      · intro h; simp at h
      · rintro ⟨x, hx, hxi, _⟩; exact absurd ⟨x, hx, hxi⟩ hno

/-- A store with a hard-wired monitor. -/
def exHard : Store :=
  let i : Item := ⟨exInterval.comp, exInterval.var, ⟨1, 0, false, .periodic, 10, .hardWired, none⟩⟩
  ⟨exDM, [i], [i], 1⟩

theorem exHard_good : Good exHard :=
  ⟨by simp [exHard], by simp [exHard], by simp [exHard], by
    intro x hx
    simp only [exHard, List.mem_singleton] at hx
    subst hx
    exact ⟨exInterval, by simp [exHard, exDM], rfl, rfl⟩⟩

/-- Non-vacuity of `C78_partial` and `C78_clear`: the hard-wired monitor cannot be cleared. -/
example : (clearOne false exHard 1).1 = .rejected ∧ (run exHard [.clear 1, .base true .hardWiredOnly]).rows = exHard.rows := by
  decide +kernel

/-- C78 is violated: SetVariableMonitoring with the id of a hard-wired monitor turns it into one of the CSMS,
which can then be cleared. -/
theorem C78_violated : ∃ (s : Store) (q : Request) (x : Item), Good s ∧ Own s q ∧ x ∈ s.rows ∧ x.mon.kind = .hardWired ∧
    (∀ y ∈ (run s [.set q]).rows, y.mon.kind = .custom) ∧ (run s [.set q, .clear x.mon.id]).rows = [] := by
  refine ⟨exHard, { exQ with id := some 1 },
    ⟨exInterval.comp, exInterval.var, ⟨1, 0, false, .periodic, 10, .hardWired, none⟩⟩,
    exHard_good, ?_, by simp [exHard], rfl, by decide +kernel, by decide +kernel⟩
  intro x hx _
  simp only [exHard, List.mem_singleton] at hx
  subst hx; exact ⟨rfl, rfl⟩

/-! ### C79: answers of SetVariableMonitoring -/

/-- The answers: one result per item, in order, naming type, severity and variable of the item; the items are
processed one after the other. -/
theorem C79_items (s : Store) (qs : List Request) :
    (setMonitors .custom s qs).2 = run s (qs.map .set) ∧
    (setMonitors .custom s qs).1.length = qs.length ∧
    ∀ (i : Nat) (q : Request), qs[i]? = some q → (setMonitors .custom s qs).1[i]? =
      some ⟨(setOne .custom (run s ((qs.take i).map .set)) q).2.1, (setOne .custom (run s ((qs.take i).map .set)) q).1,
        q.type, q.comp, q.var, q.severity⟩ := by
  induction qs generalizing s with
  | nil => exact ⟨rfl, rfl, by simp⟩
  | cons q r ih =>
    obtain ⟨h1, h2, h3⟩ := ih (setOne .custom s q).2.2
    refine ⟨h1, by simp [setMonitors, h2], ?_⟩
    intro i x hx
    cases i with
    | zero => simp at hx; subst hx; simp [setMonitors, run]
    | succ i =>
      simp only [List.getElem?_cons_succ] at hx
      simp only [setMonitors, List.getElem?_cons_succ, List.take_succ_cons, List.map_cons]
      exact h3 i x hx

/-- C79: a new monitor is Accepted exactly if the variable exists, it can be monitored with that value, there
is no monitor of the same type and severity on it, and a delta monitor has a value to refer to; the other
answers say which of this is wrong. -/
theorem C79_new (s : Store) (q : Request) (hq : q.id = none) :
    let st := (setOne .custom s q).1
    let dup := ∃ x ∈ s.mem, x.comp = q.comp ∧ x.var = q.var ∧ x.mon.type = q.type ∧ x.mon.severity = q.severity
    (st = .unknownComponent ↔ ¬ ∃ e ∈ s.dm, e.comp = q.comp) ∧
    (st = .unknownVariable ↔ (∃ e ∈ s.dm, e.comp = q.comp) ∧ ¬ ∃ e ∈ s.dm, e.comp = q.comp ∧ e.var = q.var) ∧
    (∀ e, Verif.DM.find s.dm q.comp q.var = some e →
      (st = .accepted ↔ validMonitor e.chars (Verif.DM.allowZero q.comp q.var) q = true ∧ ¬ dup ∧
        (q.type = .delta → actualValue s.dm q.comp q.var ≠ none)) ∧
      (st = .duplicate ↔ validMonitor e.chars (Verif.DM.allowZero q.comp q.var) q = true ∧ dup)) := by
  have hdup : isDuplicate s q = true ↔ ∃ x ∈ s.mem, x.comp = q.comp ∧ x.var = q.var ∧ x.mon.type = q.type ∧ x.mon.severity = q.severity := by
    simp [isDuplicate, List.any_eq_true, and_assoc]
  have hc := Verif.DM.hasComp_iff s.dm q.comp
  have hf := find_isSome s.dm q.comp q.var
  simp only
  cases h2 : Verif.DM.hasComp s.dm q.comp with
  | false =>
    have hno : ¬ ∃ e ∈ s.dm, e.comp = q.comp := fun h => by rw [hc.mpr h] at h2; simp at h2
    have hfn : Verif.DM.find s.dm q.comp q.var = none := by
      cases h3 : Verif.DM.find s.dm q.comp q.var with
      | none => rfl
      | some e => obtain ⟨he, k, _⟩ := Verif.DM.find_some h3; exact absurd ⟨e, he, k⟩ hno
    have e1 : (setOne .custom s q).1 = .unknownComponent := by simp [setOne, idUnknown, hq, h2]
    rw [e1]
    refine ⟨by simp [hno], ?_, ?_⟩
    · constructor
      · intro h; simp at h
      · rintro ⟨h, _⟩; exact absurd h hno
    · intro e he; rw [hfn] at he; simp at he
  | true =>
    have hyes := hc.mp h2
    cases h3 : Verif.DM.find s.dm q.comp q.var with
    | none =>
      have hno : ¬ ∃ e ∈ s.dm, e.comp = q.comp ∧ e.var = q.var := fun h => by
        have := hf.mpr h; rw [h3] at this; simp at this
      have e1 : (setOne .custom s q).1 = .unknownVariable := by simp [setOne, idUnknown, hq, h2, h3]
      rw [e1]
      refine ⟨by simp [hyes], by simp only [true_iff]; exact ⟨hyes, hno⟩, by simp⟩
    | some e =>
      have hyes2 := hf.mp (by rw [h3]; rfl)
      have nuc : (setOne .custom s q).1 ≠ .unknownComponent := by
        simp only [setOne, idUnknown, hq, h2, h3]
        simp
        split
        · simp
        · split
          · simp
          · split <;> simp
      have nuv : (setOne .custom s q).1 ≠ .unknownVariable := by
        simp only [setOne, idUnknown, hq, h2, h3]
        simp
        split
        · simp
        · split
          · simp
          · split <;> simp
      refine ⟨?_, ?_, ?_⟩
      · exact ⟨fun h => absurd h nuc, fun h => absurd hyes h⟩
      · exact ⟨fun h => absurd h nuv, fun h => absurd hyes2 h.2⟩
      · intro e' he'
        injection he' with he'; subst he'
        cases h4 : validMonitor e.chars (Verif.DM.allowZero q.comp q.var) q with
        | false =>
          have e1 : (setOne .custom s q).1 = .rejected := by simp [setOne, idUnknown, hq, h2, h3, h4]
          rw [e1]; simp
        | true =>
          cases h5 : isDuplicate s q with
          | true =>
            have e1 : (setOne .custom s q).1 = .duplicate := by simp [setOne, idUnknown, hq, h2, h3, h4, h5]
            rw [e1]
            have := hdup.mp h5
            refine ⟨?_, ?_⟩
            · constructor
              · intro h; simp at h
              · rintro ⟨_, h, _⟩; exact absurd this h
            · simp only [true_iff, true_and]; exact this
          | false =>
            have hnd : ¬ ∃ x ∈ s.mem, x.comp = q.comp ∧ x.var = q.var ∧ x.mon.type = q.type ∧ x.mon.severity = q.severity :=
              fun h => by rw [hdup.mpr h] at h5; simp at h5
            cases h6 : (q.type == .delta && (actualValue s.dm q.comp q.var) == none) with
            | true =>
              have e1 : (setOne .custom s q).1 = .rejected := by
                simp [setOne, idUnknown, hq, h2, h3, h4, h5, data_none .custom s q h6]
              rw [e1]
              simp only [Bool.and_eq_true, beq_iff_eq] at h6
              refine ⟨?_, ?_⟩
              · constructor
                · intro h; simp at h
                · rintro ⟨_, _, h⟩; exact absurd h6.2 (h h6.1)
              · constructor
                · intro h; simp at h
                · rintro ⟨_, h⟩; exact absurd h hnd
            | false =>
              have e1 : (setOne .custom s q).1 = .accepted := by
                simp [setOne, idUnknown, hq, h2, h3, h4, h5, data_some .custom s q h6]
              rw [e1]
              refine ⟨?_, ?_⟩
              · simp only [true_iff]
                refine ⟨trivial, hnd, fun hd hn => ?_⟩
                rw [hd, hn] at h6; simp at h6
              · constructor
                · intro h; simp at h
                · rintro ⟨_, h⟩; exact absurd h hnd

/-- C79: an accepted item installs exactly the requested monitor under the returned id, and changes no other.
A new one gets an id that was never used before; a request with an id keeps it. -/
theorem C79_accepted (s : Store) (hg : Good s) (q : Request) (ho : Own s q)
    (h : (setOne .custom s q).1 = .accepted) :
    ∃ i m, (setOne .custom s q).2.1 = some i ∧ (q.id = none → s.seq < i) ∧ (∀ j, q.id = some j → i = j) ∧
      m.id = i ∧ m.severity = q.severity ∧ m.transaction = q.transaction.getD false ∧ m.type = q.type ∧
      m.value = q.value ∧ m.kind = .custom ∧
      ∀ x, x ∈ (step s (.set q)).mem ↔ x = ⟨q.comp, q.var, m⟩ ∨ (x ∈ s.mem ∧ x.mon.id ≠ i) := by
  obtain ⟨e, _, _, _, _, _, h6, h7⟩ := setOne_accepted .custom s q h
  refine ⟨_, newMeta s q .custom (q.id.getD (s.seq + 1)), h6, ?_, ?_, rfl, rfl, rfl, rfl, rfl, rfl, ?_⟩
  · intro hq; rw [hq]; simp
  · intro j hj; rw [hj]; rfl
  · intro x
    have g' := hg.set .custom q ho
    rw [show (step s (.set q)) = (setOne .custom s q).2.2 from rfl, g'.agree x, h7]
    simp only [List.mem_append, List.mem_filter, List.mem_singleton, bne_iff_ne, hg.agree x]
    constructor
    · rintro (h | h)
      · exact .inr h
      · exact .inl h
    · rintro (h | h)
      · exact .inr h
      · exact .inl h

/-- C79: an item that is not accepted changes nothing; one with an unknown id is Rejected. -/
theorem C79_refused (s : Store) (q : Request) :
    ((setOne .custom s q).1 ≠ .accepted → step s (.set q) = s) ∧
    (∀ i, q.id = some i → (¬ ∃ x ∈ s.mem, x.mon.id = i) → (setOne .custom s q).1 = .rejected) := by
  refine ⟨fun h => (setOne_refused .custom s q h).1, fun i hi hn => ?_⟩
  have : idFound s i = false := by
    cases hf : idFound s i with
    | false => rfl
    | true =>
      simp only [idFound, List.any_eq_true, beq_iff_eq] at hf
      exact absurd hf hn
  simp [setOne, idUnknown, hi, this]

/-- Non-vacuity of `C79_new`, `C79_accepted` and `C79_items`: the second of two equal items is a Duplicate. -/
example : (setMonitors .custom ex0 [exQ, exQ]).1.map (fun r => (r.status, r.id)) =
    [(.accepted, some 1), (.duplicate, none)] := by
  decide +kernel

/-! ### C80: thresholds on numeric variables -/

/-- A text with a point is not that of an integer. -/
theorem floatText_point (x : Rat) : '.' ∈ floatText x := by
  unfold floatText; simp

theorem isInteger_no_point (s : Str) (h : '.' ∈ s) : Verif.DM.isInteger s = false := by
  cases s with
  | nil => simp at h
  | cons c r =>
    have hd : Verif.DM.isDigit '.' = false := by decide
    cases hr : Verif.DM.isInteger (c :: r) with
    | false => rfl
    | true =>
      simp only [Verif.DM.isInteger] at hr
      split at hr
      · rename_i hc
        rw [List.all_eq_true] at hr
        rcases List.mem_cons.mp h with h | h
        · rw [← h] at hc; exact absurd hc (by decide)
        · have := hr _ h; rw [hd] at this; simp at this
      · rw [List.all_eq_true] at hr
        have := hr _ h; rw [hd] at this; simp at this

/-- C80 is violated for every integer variable: the threshold is validated as a text with six digits after
the point, which is not the text of an integer.  Every threshold and every delta monitor is Rejected, whatever
its value. -/
theorem C80_violated (s : Store) (q : Request) (e : Verif.DM.Entry)
    (he : Verif.DM.find s.dm q.comp q.var = some e) (ht : e.chars.dataType = .integer)
    (hq : q.type = .upper ∨ q.type = .lower ∨ q.type = .delta) : (setOne .custom s q).1 = .rejected := by
  have hc : Verif.DM.hasComp s.dm q.comp = true := by
    obtain ⟨h1, h2, _⟩ := Verif.DM.find_some he
    exact (Verif.DM.hasComp_iff _ _).mpr ⟨e, h1, h2⟩
  have hv : validMonitor e.chars (Verif.DM.allowZero q.comp q.var) q = false := by
    have hi := isInteger_no_point _ (floatText_point q.value)
    unfold validMonitor
    rcases hq with hq | hq | hq <;> simp [hq, ht, Verif.DM.validateValue, hi]
  cases h1 : idUnknown s q with
  | true => simp [setOne, h1]
  | false => simp [setOne, h1, hc, he, hv]

/-- Non-vacuity of `C80_violated`: a threshold of 50 seconds for an interval between 1 and 100. -/
example : (setOne .custom ex0 { exQ with type := .upper, value := 50 }).1 = .rejected ∧
    Verif.DM.validateValue exInterval.chars "50".toList false = some true := by
  decide +kernel

/-- C80: a threshold for a decimal variable that can be monitored is accepted exactly if it is within the
limits of the variable.  Partial: for values that are multiples of a millionth (others are rounded to that)
and below 2^100; integer variables see `C80_violated`. -/
theorem C80_partial (s : Store) (q : Request) (e : Verif.DM.Entry)
    (he : Verif.DM.find s.dm q.comp q.var = some e) (ht : e.chars.dataType = .decimal)
    (hm : e.chars.supportsMonitoring = true) (hq : q.type = .upper ∨ q.type = .lower) (hid : q.id = none)
    (hnew : ¬ ∃ x ∈ s.mem, x.comp = q.comp ∧ x.var = q.var ∧ x.mon.type = q.type ∧ x.mon.severity = q.severity)
    (k : Int) (hk : q.value = (k : Rat) / 1000000) (hb : -2 ^ 100 < k ∧ k < 2 ^ 100) :
    (setOne .custom s q).1 = .accepted ↔
      (Verif.DM.ZeroAllowed q.comp q.var ∧ q.value = 0) ∨ Verif.DM.InLimits e.chars q.value := by
  have h := (C79_new s q hid).2.2 e he
  rw [h.1]
  have hd : q.type ≠ .delta := by rcases hq with hq | hq <;> simp [hq]
  have hp : (q.type == .periodic || q.type == .periodicAligned) = false := by
    rcases hq with hq | hq <;> simp [hq]
  have hv : validMonitor e.chars (Verif.DM.allowZero q.comp q.var) q = true ↔
      (Verif.DM.ZeroAllowed q.comp q.var ∧ q.value = 0) ∨ Verif.DM.InLimits e.chars q.value := by
    have ht' := floatText_spec k
    rw [← hk] at ht'
    have hbound : ¬ (Verif.DM.floatBound ≤ q.value ∨ Verif.DM.floatBound ≤ -q.value) := by
      have e1 : ((2 ^ 100 : Int) : Rat) ≤ Verif.DM.floatBound := by decide +kernel
      have e2 : ((k : Int) : Rat) < ((2 ^ 100 : Int) : Rat) := by exact_mod_cast hb.2
      have e3 : ((-2 ^ 100 : Int) : Rat) < (k : Rat) := by exact_mod_cast hb.1
      have e4 : ((-2 ^ 100 : Int) : Rat) = - ((2 ^ 100 : Int) : Rat) := by push_cast; ring
      rw [e4] at e3
      have e5 : (0 : Rat) < ((2 ^ 100 : Int) : Rat) := by decide +kernel
      generalize ((2 ^ 100 : Int) : Rat) = B at e1 e2 e3 e5
      have e6 : q.value * 1000000 = k := by
        rw [hk]; exact div_mul_cancel₀ (k : Rat) (by decide +kernel)
      generalize q.value = x at e6 ⊢
      generalize Verif.DM.floatBound = F at e1 ⊢
      rintro (h | h)
      · nlinarith
      · nlinarith
    obtain ⟨d1, d2⟩ := (Verif.DM.decimal_iff _ _).mpr ⟨ht', hbound⟩
    have hd' : (q.type == .delta) = false := by simpa using hd
    simp only [validMonitor, hm, Bool.not_true, Bool.false_eq_true, if_false, hd', Bool.false_and, hp,
      Verif.DM.validateValue, ht, d1, d2]
    rw [← Verif.DM.decimalInLimits_iff, ← Verif.DM.allowZero_iff]
    by_cases hz : (Verif.DM.allowZero q.comp q.var && q.value == 0) = true
    · simp only [hz, if_true, true_iff]
      exact .inl (by simpa using hz)
    · simp only [hz, if_false]
      constructor
      · intro h; exact .inr (by simpa using h)
      · rintro (h | h)
        · exact absurd (by simpa using h) hz
        · simpa using h
  rw [hv]
  constructor
  · exact fun h => h.1
  · exact fun h => ⟨h, hnew, fun hx => absurd hx hd⟩

/-- A store with one decimal variable between 0 and 100 that can be monitored. -/
def exDecimal : Store :=
  ⟨[{ exInterval with chars := { exInterval.chars with dataType := .decimal, supportsMonitoring := true } }], [], [], 0⟩

/-- Non-vacuity of `C80_partial`: 50.5 is accepted, 100.000001 is not. -/
example : (setOne .custom exDecimal { exQ with type := .upper, value := 101 / 2 }).1 = .accepted ∧
    (setOne .custom exDecimal { exQ with type := .upper, value := 100000000001 / 1000000 }).1 = .rejected := by
  decide +kernel

/-! ### C81: GetMonitoringReport -/

/-- The monitor is in the report of the variable. -/
def Shown (ds : List Data) (c : Comp) (v : Vbl) (m : Meta) : Prop :=
  ∃ d ∈ ds, d.comp = c ∧ d.var = v ∧ m ∈ d.mons

/-- A monitor of the kind a criterion asks for. -/
def OfCriterion (t : MType) : Criterion → Prop
  | .threshold => t = .upper ∨ t = .lower
  | .delta => t = .delta
  | .periodic => t = .periodic ∨ t = .periodicAligned

theorem criteria_iff (ks : List Criterion) (m : Meta) :
    criteriaMatch ks m = true ↔ (ks ≠ [] → ∃ k ∈ ks, OfCriterion m.type k) := by
  have hk : ∀ k, criterionMatch m.type k = true ↔ OfCriterion m.type k := by
    intro k; cases k <;> simp [criterionMatch, OfCriterion, or_comm]
  cases ks with
  | nil => simp [criteriaMatch]
  | cons a r => simp [criteriaMatch, hk]

theorem dataOf_iff (s : Store) (ks : List Criterion) (c : Comp) (v : Vbl) (d : Data) (m : Meta) :
    (dataOf s ks c v = some d ∧ m ∈ d.mons → d.comp = c ∧ d.var = v ∧ ⟨c, v, m⟩ ∈ s.mem ∧ criteriaMatch ks m = true) ∧
    (⟨c, v, m⟩ ∈ s.mem → criteriaMatch ks m = true → ∃ d, dataOf s ks c v = some d ∧ d.comp = c ∧ d.var = v ∧ m ∈ d.mons) := by
  unfold dataOf
  constructor
  · rintro ⟨h, hm⟩
    simp only at h
    split at h
    · simp at h
    · injection h with h; subst h
      simp only [List.mem_map, List.mem_filter, Bool.and_eq_true, beq_iff_eq] at hm
      obtain ⟨x, ⟨hx, ⟨h1, h2⟩, h3⟩, rfl⟩ := hm
      refine ⟨rfl, rfl, ?_, h3⟩
      rw [← h1, ← h2]; exact hx
  · intro hx hc
    have hmem : m ∈ (s.mem.filter (fun x => x.comp == c && x.var == v && criteriaMatch ks x.mon)).map (·.mon) :=
      List.mem_map.mpr ⟨⟨c, v, m⟩, List.mem_filter.mpr ⟨hx, by simp [hc]⟩, rfl⟩
    refine ⟨_, if_neg ?_, rfl, rfl, hmem⟩
    intro h; rw [h] at hmem; simp at hmem

/-- C81: the report contains exactly the monitors of the requested variables (all variables of a component
if none is named, all components if there is no list) that match one of the criteria (all if there are
none). -/
theorem C81 (s : Store) (hg : Good s) (ks : List Criterion) (cvs : List Verif.DM.CompVar) (c : Comp) (v : Vbl) (m : Meta) :
    Shown (getMonitors s ks cvs) c v m ↔
      ⟨c, v, m⟩ ∈ s.mem ∧ (ks ≠ [] → ∃ k ∈ ks, OfCriterion m.type k) ∧
      (cvs ≠ [] → ∃ cv ∈ cvs, cv.comp = c ∧ (cv.var = none ∨ cv.var = some v)) := by
  rw [← criteria_iff]
  have known : ∀ {c v m}, (⟨c, v, m⟩ : Item) ∈ s.mem → ∃ e ∈ s.dm, e.comp = c ∧ e.var = v :=
    fun {c v m} hx => hg.known _ ((hg.agree _).mp hx)
  unfold getMonitors
  split
  · rename_i hn
    subst hn
    simp only [Shown, List.mem_filterMap, ne_eq, not_true_eq_false, false_implies, and_true]
    constructor
    · rintro ⟨d, ⟨e, _, hd⟩, h1, h2, hm⟩
      obtain ⟨k1, k2, k3, k4⟩ := (dataOf_iff s ks e.comp e.var d m).1 ⟨hd, hm⟩
      rw [← h1, ← h2, k1, k2]; exact ⟨k3, k4⟩
    · rintro ⟨hx, hc⟩
      obtain ⟨e, he, rfl, rfl⟩ := known hx
      obtain ⟨d, hd, h1, h2, hm⟩ := (dataOf_iff s ks e.comp e.var ⟨e.comp, e.var, []⟩ m).2 hx hc
      exact ⟨d, ⟨e, he, hd⟩, h1, h2, hm⟩
  · rename_i hn
    simp only [Shown, List.mem_flatMap, ne_eq, hn, not_false_eq_true, true_implies]
    constructor
    · rintro ⟨d, ⟨cv, hcv, hd⟩, h1, h2, hm⟩
      unfold dataFor at hd
      split at hd
      · rename_i hv
        simp only [List.mem_filterMap, List.mem_filter, beq_iff_eq] at hd
        obtain ⟨e, ⟨_, _⟩, hd⟩ := hd
        obtain ⟨k1, k2, k3, k4⟩ := (dataOf_iff s ks cv.comp e.var d m).1 ⟨hd, hm⟩
        rw [← h1, ← h2, k1, k2]
        exact ⟨k3, k4, cv, hcv, rfl, .inl hv⟩
      · rename_i w hv
        split at hd
        · rw [Option.mem_toList] at hd
          obtain ⟨k1, k2, k3, k4⟩ := (dataOf_iff s ks cv.comp w d m).1 ⟨hd, hm⟩
          rw [← h1, ← h2, k1, k2]
          exact ⟨k3, k4, cv, hcv, rfl, .inr hv⟩
        · simp at hd
    · rintro ⟨hx, hc, cv, hcv, rfl, hv⟩
      obtain ⟨d, hd, h1, h2, hm⟩ := (dataOf_iff s ks cv.comp v ⟨cv.comp, v, []⟩ m).2 hx hc
      refine ⟨d, ⟨cv, hcv, ?_⟩, h1, h2, hm⟩
      obtain ⟨e, he, k1, k2⟩ := known hx
      unfold dataFor
      rcases hv with hv | hv
      · simp only [hv, List.mem_filterMap, List.mem_filter, beq_iff_eq]
        exact ⟨e, ⟨he, k1⟩, by rw [k2]; exact hd⟩
      · simp only [hv]
        rw [if_pos ((find_isSome _ _ _).mpr ⟨e, he, k1, k2⟩), Option.mem_toList]
        exact hd

/-- Non-vacuity of `C81`. -/
example : (getMonitors exHard [.threshold, .periodic] [⟨exInterval.comp, none⟩]).map (fun d => d.mons.map (·.id)) = [[1]] ∧
    getMonitors exHard [.threshold] [] = [] := by
  decide +kernel

end Verif.Mon
