import Verif.ProfileStore.Validate

/-! # Invariants of the store over all histories -/

set_option linter.unusedSimpArgs false
set_option linter.unusedVariables false

namespace Verif.PS
open Verif.SC16 (RUnit)

/-! ## Transactions do not matter for the schedules -/

theorem setTx_length (env : Env) (e : Int) (t : Option Nat) : (setTx env e t).evses.length = env.evses.length := by simp [setTx]

theorem setTx_evse (env : Env) (e : Int) (t : Option Nat) (evse : Int) :
    ((setTx env e t).evse? evse).map (fun i => (i.phaseType, i.dcControl)) = (env.evse? evse).map (fun i => (i.phaseType, i.dcControl)) := by
  unfold Env.evse?
  split
  · rfl
  · simp only [setTx, List.getElem?_mapIdx]
    cases env.evses[(evse - 1).toNat]? with
    | none => rfl
    | some i =>
      simp only [Option.map_some]
      split <;> rfl

theorem setTx_phaseType (env : Env) (e : Int) (t : Option Nat) (evse : Int) : (setTx env e t).phaseType evse = env.phaseType evse := by
  have h := setTx_evse env e t evse
  unfold Env.phaseType
  cases h1 : (setTx env e t).evse? evse <;> cases h2 : env.evse? evse <;> simp [h1, h2] at h
  · rfl
  · simp [h.1]

theorem setTx_dcControl (env : Env) (e : Int) (t : Option Nat) (evse : Int) : (setTx env e t).dcControl evse = env.dcControl evse := by
  have h := setTx_evse env e t evse
  unfold Env.dcControl
  cases h1 : (setTx env e t).evse? evse <;> cases h2 : env.evse? evse <;> simp [h1, h2] at h
  · simp only [setTx]
    rw [Bool.eq_iff_iff]
    simp only [List.all_eq_true]
    constructor
    · intro ha x hx
      obtain ⟨k, hk, rfl⟩ := List.getElem_of_mem hx
      have := ha _ (List.getElem_mem (by simpa using hk : k < (env.evses.mapIdx _).length))
      simp only [List.getElem_mapIdx] at this
      split at this <;> exact this
    · intro ha x hx
      obtain ⟨k, hk, rfl⟩ := List.getElem_of_mem hx
      have hk' : k < env.evses.length := by simpa using hk
      have := ha _ (List.getElem_mem hk')
      simp only [List.getElem_mapIdx]
      split <;> exact this
  · simp [h.2]

theorem setTx_checkPeriod (env : Env) (e : Int) (t : Option Nat) (evse : Int) (p : Profile) (u : RUnit) (f : Bool) (n : Option Int) (x : Period) :
    checkPeriod (setTx env e t) evse p u f n x = checkPeriod env evse p u f n x := by
  unfold checkPeriod
  rw [setTx_phaseType, setTx_dcControl]
  rfl

theorem setTx_checkPeriods (env : Env) (e : Int) (t : Option Nat) (evse : Int) (p : Profile) (u : RUnit) (f : Bool) (l : List Period) :
    checkPeriods (setTx env e t) evse p u f l = checkPeriods env evse p u f l := by
  induction l generalizing f with
  | nil => rfl
  | cons x rest ih => rw [checkPeriods, checkPeriods, setTx_checkPeriod, ih]

theorem setTx_schedules (env : Env) (e : Int) (t : Option Nat) (evse : Int) (p : Profile) :
    validateSchedules (setTx env e t) evse p = validateSchedules env evse p := by
  have h1 : ∀ s, checkSchedule (setTx env e t) evse p s = checkSchedule env evse p s := by
    intro s
    unfold checkSchedule
    rw [setTx_checkPeriods]
    rfl
  have h2 : ∀ l, checkSchedules (setTx env e t) evse p l = checkSchedules env evse p l := by
    intro l
    induction l with
    | nil => rfl
    | cons s rest ih => rw [checkSchedules, checkSchedules, h1, ih]
  unfold validateSchedules
  rw [h2]

/-! ## Invariant -/

/-- Where a stored profile comes from. -/
structure Stored (env : Env) (r : Row) : Prop where
  orig : ∃ p, r.profile = conform (env.phaseType r.evse) p ∧ validateSchedules env r.evse p = .valid
  known : 0 ≤ r.evse ∧ r.evse ≤ (env.evses.length : Int)
  reserved : env.v21 = true → ∀ m, env.maxExternalId = some m → m < r.profile.id
  stationMax : r.profile.purpose = .stationMax → r.evse = 0 ∧ r.profile.kind ≠ .relative
  priority : r.profile.purpose = .priority → ∀ s ∈ r.profile.schedules, s.duration = none
  supported : r.profile.purpose ≠ .localGeneration

def Disjoint' (a b : Profile) : Prop :=
  a.validTo.getD forever < b.validFrom.getD 0 ∨ b.validTo.getD forever < a.validFrom.getD 0

structure Inv (env : Env) (rows : List Row) : Prop where
  ids : UniqueIds rows
  stored : ∀ r ∈ rows, Stored env r
  over : ∀ a ∈ rows, ∀ b ∈ rows, a.profile.id ≠ b.profile.id → a.profile.purpose ≠ .tx → a.profile.purpose = b.profile.purpose →
    a.evse = b.evse → a.profile.stack = b.profile.stack → Disjoint' a.profile b.profile
  mixed : NoMixedTxDefault rows

theorem conform_fields (pt : PhaseType) (p : Profile) :
    (conform pt p).id = p.id ∧ (conform pt p).stack = p.stack ∧ (conform pt p).purpose = p.purpose ∧ (conform pt p).kind = p.kind ∧
      (conform pt p).txId = p.txId ∧ (conform pt p).validFrom = some (p.validFrom.getD 0) ∧
      (conform pt p).validTo = some (p.validTo.getD forever) := by
  cases pt <;> exact ⟨rfl, rfl, rfl, rfl, rfl, rfl, rfl⟩

theorem mem_insert (rows : List Row) (r x : Row) : x ∈ insert rows r ↔ (x ∈ rows ∧ x.profile.id ≠ r.profile.id) ∨ x = r := by
  simp [insert]

theorem mem_unique {rows : List Row} (h : UniqueIds rows) {a b : Row} (ha : a ∈ rows) (hb : b ∈ rows) (hid : a.profile.id = b.profile.id) :
    a = b := by
  induction rows with
  | nil => simp at ha
  | cons x rest ih =>
    rw [UniqueIds, List.pairwise_cons] at h
    rcases List.mem_cons.1 ha with rfl | ha <;> rcases List.mem_cons.1 hb with rfl | hb
    · rfl
    · exact absurd hid (h.1 b hb)
    · exact absurd hid.symm (h.1 a (by assumption))
    · exact ih h.2 ha hb

theorem conform_schedules_mem (pt : PhaseType) (p : Profile) (s : Schedule) (h : s ∈ (conform pt p).schedules) :
    ∃ s0 ∈ p.schedules, s = s0 ∨ s = { s0 with periods := s0.periods.map conformPhases } := by
  cases pt with
  | AC =>
    simp only [conform, conformValidity, List.mem_map] at h
    obtain ⟨s0, h0, rfl⟩ := h
    exact ⟨s0, h0, .inr rfl⟩
  | DC => exact ⟨s, h, .inl rfl⟩
  | unknown => exact ⟨s, h, .inl rfl⟩

theorem inv_filter {env : Env} {rows : List Row} (h : Inv env rows) (f : Row → Bool) : Inv env (rows.filter f) := by
  refine ⟨h.ids.filter f, ?_, ?_, ?_⟩
  · intro r hr; exact h.stored r (List.mem_filter.1 hr).1
  · intro a ha b hb; exact h.over a (List.mem_filter.1 ha).1 b (List.mem_filter.1 hb).1
  · intro a ha b hb; exact h.mixed a (List.mem_filter.1 ha).1 b (List.mem_filter.1 hb).1

/-- Both ways of validating imply what the invariant needs. -/
theorem validate_parts (env : Env) (rows : List Row) (evse : Int) (p : Profile) (o : Origin) (h : validate env rows evse p o = .valid) :
    (0 ≤ evse ∧ evse ≤ (env.evses.length : Int)) ∧ (p.schedules ≠ [] ∧ ∀ s ∈ p.schedules, ScheduleRules env evse p s) ∧
    (∀ r ∈ rows, r.profile.id = p.id → r.profile.purpose ≠ .external) ∧
    (env.v21 = true → ∀ m, env.maxExternalId = some m → m < p.id) ∧
    (p.purpose ≠ .tx → ∀ r ∈ rows, r.profile.purpose = p.purpose → r.evse = evse → r.profile.stack = p.stack →
      r.profile.id ≠ p.id → r.profile.validTo.getD forever < p.validFrom.getD 0 ∨ p.validTo.getD forever < r.profile.validFrom.getD 0) ∧
    (p.purpose = .txDefault → ∀ r ∈ rows, r.profile.purpose = .txDefault → r.profile.stack = p.stack →
      r.profile.id ≠ p.id → ¬ ((evse = 0 ∧ r.evse ≠ 0) ∨ (evse ≠ 0 ∧ r.evse = 0))) ∧
    (p.purpose = .stationMax → evse = 0 ∧ p.kind ≠ .relative) ∧ (p.purpose = .priority → ∀ s ∈ p.schedules, s.duration = none) ∧
    p.purpose ≠ .localGeneration := by
  cases o with
  | set =>
    obtain ⟨a, b, c, d, e⟩ := (validate_iff _ _ _ _).1 h
    exact ⟨a, ⟨b, c⟩, d.id, d.reserved, d.validity, d.txDefault, e.stationMax, e.priority, e.supported⟩
  | remoteStart =>
    obtain ⟨a, b, c, d, e, f⟩ := (validate_remote _ _ _ _).1 h
    exact ⟨by omega, ⟨c, d⟩, e, f, by simp [a], by simp [a], by simp [a], by simp [a], by simp [a]⟩

theorem inv_insert {env : Env} {rows : List Row} (h : Inv env rows) (evse : Int) (p : Profile) (o : Origin) (src : String)
    (hv : validate env rows evse p o = .valid) : Inv env (insert rows ⟨evse, conform (env.phaseType evse) p, src⟩) := by
  obtain ⟨known, sched, hid, hres, hval, hdef, hmax, hpri, hsup⟩ := validate_parts env rows evse p o hv
  obtain ⟨fid, fst, fpu, fki, ftx, fvf, fvt⟩ := conform_fields (env.phaseType evse) p
  refine ⟨?_, ?_, ?_, ?_⟩
  · unfold UniqueIds insert
    rw [List.pairwise_append]
    refine ⟨h.ids.filter _, by simp, ?_⟩
    intro a ha b hb
    simp only [List.mem_singleton] at hb
    subst hb
    simpa using (List.mem_filter.1 ha).2
  · intro r hr
    rcases (mem_insert _ _ _).1 hr with ⟨hr, _⟩ | rfl
    · exact h.stored r hr
    · refine ⟨⟨p, rfl, (validateSchedules_iff env evse known p).2 sched⟩, known, ?_, ?_, ?_, ?_⟩
      · simp only [fid]; exact hres
      · simp only [fpu, fki]; exact hmax
      · simp only [fpu]
        intro hp s hs
        obtain ⟨s0, h0, rfl | rfl⟩ := conform_schedules_mem _ _ _ hs
        · exact hpri hp s h0
        · exact hpri hp s0 h0
      · simp only [fpu]; exact hsup
  · intro a ha b hb
    rcases (mem_insert _ _ _).1 ha with ⟨ha, na⟩ | rfl <;> rcases (mem_insert _ _ _).1 hb with ⟨hb, nb⟩ | rfl
    · exact h.over a ha b hb
    · simp only [fid, fpu, fst, Disjoint', fvf, fvt, Option.getD_some] at na ⊢
      intro n1 n2 n3 n4 n5
      exact hval (n3 ▸ n2) a ha n3 n4 n5 na
    · simp only [fid, fpu, fst, Disjoint', fvf, fvt, Option.getD_some] at nb ⊢
      intro n1 n2 n3 n4 n5
      exact (hval n2 b hb n3.symm n4.symm n5.symm nb).symm
    · intro n; exact absurd rfl n
  · intro a ha b hb
    rcases (mem_insert _ _ _).1 ha with ⟨ha, na⟩ | rfl <;> rcases (mem_insert _ _ _).1 hb with ⟨hb, nb⟩ | rfl
    · exact h.mixed a ha b hb
    · simp only [fid, fpu, fst] at na ⊢
      intro n1 n2 n3 n4 n5
      exact hdef n2 a ha n1 n5 na (.inr ⟨n4, n3⟩)
    · simp only [fid, fpu, fst] at nb ⊢
      intro n1 n2 n3 n4 n5
      exact hdef n1 b hb n2 n5.symm nb (.inl ⟨n3, n4⟩)
    · intro _ _ n1 n2; exact absurd n1 n2

theorem inv_setTx {env : Env} {rows : List Row} (h : Inv env rows) (e : Int) (t : Option Nat) : Inv (setTx env e t) rows := by
  refine ⟨h.ids, ?_, h.over, h.mixed⟩
  intro r hr
  obtain ⟨⟨p, h1, h2⟩, h3, h4, h5, h6, h7⟩ := h.stored r hr
  refine ⟨⟨p, ?_, ?_⟩, ?_, h4, h5, h6, h7⟩
  · rw [setTx_phaseType]; exact h1
  · rw [setTx_schedules]; exact h2
  · rw [setTx_length]; exact h3

/-- What adding does. -/
theorem add_cases (s : State) (now evse : Int) (p : Profile) (src : String) (o : Origin) :
    ((add s now evse p src o).1.env = s.env) ∧
    (((add s now evse p src o).2 = .valid ∧ validate s.env s.rows evse p o = .valid ∧ rateLimited s now p = false ∧
        (add s now evse p src o).1.rows = insert s.rows ⟨evse, conform (s.env.phaseType evse) p, src⟩) ∨
     ((add s now evse p src o).2 ≠ .valid ∧ (validate s.env s.rows evse p o ≠ .valid ∨ rateLimited s now p = true) ∧
        (add s now evse p src o).1.rows = s.rows)) := by
  have hst : (stamp s now p).env = s.env ∧ (stamp s now p).rows = s.rows := by
    unfold stamp; split <;> exact ⟨rfl, rfl⟩
  by_cases hv : validate s.env s.rows evse p o = .valid
  · by_cases hr : rateLimited s now p = true
    · simp [add, hv, hr, hst]
    · simp [add, hv, hr, hst]
  · have : add s now evse p src o = (s, validate s.env s.rows evse p o) := by
      unfold add
      split
      · rename_i h; exact absurd h hv
      · rfl
    rw [this]
    exact ⟨rfl, .inr ⟨hv, .inl hv, rfl⟩⟩

theorem handleSet_cases (s : State) (now evse : Int) (p : Profile) :
    ((handleSet s now evse p).1.env = s.env) ∧
    (((handleSet s now evse p).2 = .accepted ∧ s.env.available = true ∧ p.purpose ≠ .external ∧
        validate s.env s.rows evse p .set = .valid ∧ rateLimited s now p = false ∧
        (handleSet s now evse p).1.rows = insert s.rows ⟨evse, conform (s.env.phaseType evse) p, "CSO"⟩) ∨
     ((handleSet s now evse p).2 ≠ .accepted ∧ (s.env.available = false ∨ p.purpose = .external ∨
        validate s.env s.rows evse p .set ≠ .valid ∨ rateLimited s now p = true) ∧
        (handleSet s now evse p).1.rows = s.rows)) := by
  unfold handleSet
  cases ha : s.env.available with
  | false => simp
  | true =>
    by_cases hx : p.purpose = .external
    · simp [hx]
    · obtain ⟨h0, h⟩ := add_cases s now evse p "CSO" .set
      simp only [Bool.not_true, Bool.false_eq_true, if_false, hx]
      rcases h with ⟨h1, h2, h3, h4⟩ | ⟨h1, h2, h4⟩
      · exact ⟨h0, .inl ⟨by simp [h1], trivial, hx, h2, h3, h4⟩⟩
      · refine ⟨h0, .inr ⟨by simp [h1], ?_, h4⟩⟩
        rcases h2 with h2 | h2
        · exact .inr (.inr (.inl h2))
        · exact .inr (.inr (.inr h2))

theorem inv_step {s : State} (h : Inv s.env s.rows) (op : Op) : Inv (step s op).env (step s op).rows := by
  cases op with
  | set now evse p =>
    obtain ⟨h0, h1⟩ := handleSet_cases s now evse p
    simp only [step, h0]
    rcases h1 with ⟨_, _, _, hv, _, hr⟩ | ⟨_, _, hr⟩
    · rw [hr]; exact inv_insert h _ _ _ _ hv
    · rw [hr]; exact h
  | addApi now evse p src =>
    obtain ⟨h0, h1⟩ := add_cases s now evse p src .set
    simp only [step, h0]
    rcases h1 with ⟨_, hv, _, hr⟩ | ⟨_, _, hr⟩
    · rw [hr]; exact inv_insert h _ _ _ _ hv
    · rw [hr]; exact h
  | remoteStart now evse p =>
    obtain ⟨h0, h1⟩ := add_cases s now evse p "CSO" .remoteStart
    simp only [step, h0]
    rcases h1 with ⟨_, hv, _, hr⟩ | ⟨_, _, hr⟩
    · rw [hr]; exact inv_insert h _ _ _ _ hv
    · rw [hr]; exact h
  | clear id c =>
    simp only [step, handleClear]
    split
    · exact h
    · split
      · exact inv_filter h _
      · split
        · exact ⟨List.Pairwise.nil, by simp, by simp, by simp [NoMixedTxDefault]⟩
        · split
          · exact inv_filter h _
          · exact h
  | txStarted evse i => exact inv_setTx h _ _
  | txEnded evse =>
    simp only [step]
    split
    · exact h
    · exact inv_setTx (inv_filter h _) _ _

theorem inv_run (s : State) (h : Inv s.env s.rows) (ops : List Op) : Inv (run s ops).env (run s ops).rows := by
  induction ops generalizing s with
  | nil => exact h
  | cons op rest ih => exact ih (step s op) (inv_step h op)

theorem inv_empty (env : Env) : Inv env [] := ⟨List.Pairwise.nil, by simp, by simp, by simp [NoMixedTxDefault]⟩

/-! ## Transaction ids -/

/-- The requests follow the rule that only TxProfiles carry a transaction id, and that those of RequestStartTransaction carry none. -/
def Op.Clean : Op → Prop
  | .set _ _ p => p.purpose ≠ .tx → p.txId = none
  | .addApi _ _ p _ => p.purpose ≠ .tx → p.txId = none
  | .remoteStart _ _ p => p.txId = none
  | _ => True

structure TxInv (rows : List Row) : Prop where
  other : ∀ r ∈ rows, r.profile.purpose ≠ .tx → r.profile.txId = none
  levels : ∀ a ∈ rows, ∀ b ∈ rows, a.profile.txId ≠ none → a.profile.txId = b.profile.txId → a.profile.stack = b.profile.stack →
    a.profile.id = b.profile.id

theorem txInv_filter {rows : List Row} (h : TxInv rows) (f : Row → Bool) : TxInv (rows.filter f) :=
  ⟨fun r hr => h.other r (List.mem_filter.1 hr).1, fun a ha b hb => h.levels a (List.mem_filter.1 ha).1 b (List.mem_filter.1 hb).1⟩

theorem txInv_insert {rows : List Row} (h : TxInv rows) (evse : Int) (p : Profile) (pt : PhaseType) (src : String)
    (h1 : p.purpose ≠ .tx → p.txId = none)
    (h2 : p.txId ≠ none → ∀ r ∈ rows, r.profile.txId = p.txId → r.profile.stack = p.stack → r.profile.id = p.id) :
    TxInv (insert rows ⟨evse, conform pt p, src⟩) := by
  obtain ⟨fid, fst, fpu, fki, ftx, fvf, fvt⟩ := conform_fields pt p
  constructor
  · intro r hr
    rcases (mem_insert _ _ _).1 hr with ⟨hr, _⟩ | rfl
    · exact h.other r hr
    · simpa only [fpu, ftx] using h1
  · intro a ha b hb
    rcases (mem_insert _ _ _).1 ha with ⟨ha, na⟩ | rfl <;> rcases (mem_insert _ _ _).1 hb with ⟨hb, nb⟩ | rfl
    · exact h.levels a ha b hb
    · simp only [fid, fst, ftx] at na ⊢
      intro n1 n2 n3
      exact h2 (n2 ▸ n1) a ha n2 n3
    · simp only [fid, fst, ftx] at nb ⊢
      intro n1 n2 n3
      exact (h2 n1 b hb n2.symm n3.symm).symm
    · intro _ _ _; rfl

theorem txInv_step {s : State} (h : TxInv s.rows) (op : Op) (hc : op.Clean) : TxInv (step s op).rows := by
  have key : ∀ evse p, (p.purpose ≠ .tx → p.txId = none) → validate s.env s.rows evse p .set = .valid →
      (p.txId ≠ none → ∀ r ∈ s.rows, r.profile.txId = p.txId → r.profile.stack = p.stack → r.profile.id = p.id) := by
    intro evse p h1 hv h2
    have := (validate_iff _ _ _ _).1 hv
    by_cases hp : p.purpose = .tx
    · exact this.store.tx hp
    · exact absurd (h1 hp) h2
  cases op with
  | set now evse p =>
    obtain ⟨h0, h1⟩ := handleSet_cases s now evse p
    simp only [step]
    rcases h1 with ⟨_, _, _, hv, _, hr⟩ | ⟨_, _, hr⟩
    · rw [hr]; exact txInv_insert h _ _ _ _ hc (key _ _ hc hv)
    · rw [hr]; exact h
  | addApi now evse p src =>
    obtain ⟨h0, h1⟩ := add_cases s now evse p src .set
    simp only [step]
    rcases h1 with ⟨_, hv, _, hr⟩ | ⟨_, _, hr⟩
    · rw [hr]; exact txInv_insert h _ _ _ _ hc (key _ _ hc hv)
    · rw [hr]; exact h
  | remoteStart now evse p =>
    obtain ⟨h0, h1⟩ := add_cases s now evse p "CSO" .remoteStart
    simp only [step]
    have hc' : p.txId = none := hc
    rcases h1 with ⟨_, hv, _, hr⟩ | ⟨_, _, hr⟩
    · rw [hr]; exact txInv_insert h _ _ _ _ (fun _ => hc') (fun hn => absurd hc' hn)
    · rw [hr]; exact h
  | clear id c =>
    simp only [step, handleClear]
    split
    · exact h
    · split
      · exact txInv_filter h _
      · split
        · exact ⟨by simp, by simp⟩
        · split
          · exact txInv_filter h _
          · exact h
  | txStarted evse i => exact h
  | txEnded evse =>
    simp only [step]
    split
    · exact h
    · exact txInv_filter h _

theorem txInv_run (s : State) (h : TxInv s.rows) (ops : List Op) (hc : ∀ op ∈ ops, op.Clean) : TxInv (run s ops).rows := by
  induction ops generalizing s with
  | nil => exact h
  | cons op rest ih =>
    exact ih (step s op) (txInv_step h op (hc op (by simp))) (fun o ho => hc o (by simp [ho]))

end Verif.PS
