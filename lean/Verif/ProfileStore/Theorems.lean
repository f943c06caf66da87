import Verif.ProfileStore.Invariants
import Verif.ProfileStore.Reports
import Verif.SmartCharging.V2Theorems

/-! # Properties C20–C23, C54–C56: validation, storage, reports and use of charging profiles -/

set_option linter.unusedSimpArgs false
set_option linter.unusedVariables false

namespace Verif.PS
open Verif.SC16 (RUnit)

/-! ## Examples -/

def exPeriod (start : Int) (l : Rat) : Period := { start := start, limit := ⟨some l, none, none⟩ }
def exSchedule : Schedule := { unit := .A, start := some 0, periods := [exPeriod 0 16, exPeriod 3600 8] }
def exDefault (id : Int) : Profile := { id := id, stack := 1, purpose := .txDefault, kind := .absolute, schedules := [exSchedule] }
def exTx (id : Int) : Profile := { id := id, stack := 1, purpose := .tx, kind := .absolute, txId := some 7, schedules := [exSchedule] }
def exExternal (id : Int) : Profile := { id := id, stack := 1, purpose := .external, kind := .absolute, schedules := [exSchedule] }
def exEnv : Env := { evses := [{ tx := some 7 }, {}] }
def exState : State := { env := exEnv, rows := [] }

/-! ## C21 -/

/-- The rate limit of OCPP 2.1 allows a profile at `now`: the last valid profile of that purpose came long enough ago. -/
def RateAllows (s : State) (now : Int) (p : Profile) : Prop :=
  s.env.v21 = true → ∀ l, s.env.rateLimit = some l → ∀ t, s.last p.purpose = some t → l ≤ now - t

theorem rateLimited_iff (s : State) (now : Int) (p : Profile) : rateLimited s now p = false ↔ RateAllows s now p := by
  unfold rateLimited RateAllows
  cases h1 : s.env.v21 <;> cases h2 : s.env.rateLimit <;> cases h3 : s.last p.purpose <;> simp

/-- **C21 (acceptance).** SetChargingProfile is accepted exactly for acceptable profiles (`Acceptable`) that are not external constraints,
while smart charging is available and the rate limit allows it. -/
theorem C21_accepted_iff (s : State) (now evse : Int) (p : Profile) :
    (handleSet s now evse p).2 = .accepted ↔
      s.env.available = true ∧ p.purpose ≠ .external ∧ Acceptable s.env s.rows evse p ∧ RateAllows s now p := by
  rw [← validate_iff, ← rateLimited_iff]
  obtain ⟨_, h | h⟩ := handleSet_cases s now evse p
  · exact ⟨fun _ => ⟨h.2.1, h.2.2.1, h.2.2.2.1, h.2.2.2.2.1⟩, fun _ => h.1⟩
  · constructor
    · intro ha; exact absurd ha h.1
    · rintro ⟨h1, h2, h3, h4⟩
      rcases h.2.1 with h' | h' | h' | h'
      · rw [h1] at h'; cases h'
      · exact absurd h' h2
      · exact absurd h3 h'
      · rw [h4] at h'; cases h'

/-- **C21 (effect).** An accepted profile is stored for its EVSE, with the same limits and the missing validity and numbers of phases
filled in; it replaces the profile with its id, and no other profile changes. If it is not accepted the store stays as it was. -/
theorem C21_effect (s : State) (now evse : Int) (p : Profile) :
    ((handleSet s now evse p).2 = .accepted → ∀ r, r ∈ (handleSet s now evse p).1.rows ↔
      (r ∈ s.rows ∧ r.profile.id ≠ p.id) ∨ r = ⟨evse, conform (s.env.phaseType evse) p, "CSO"⟩) ∧
    ((handleSet s now evse p).2 ≠ .accepted → (handleSet s now evse p).1.rows = s.rows) := by
  obtain ⟨_, h | h⟩ := handleSet_cases s now evse p
  · refine ⟨?_, fun hn => absurd h.1 hn⟩
    intro _ r
    rw [h.2.2.2.2.2, mem_insert]
    simp only [(conform_fields (s.env.phaseType evse) p).1]
  · exact ⟨fun hn => absurd hn h.1, fun _ => h.2.2⟩

/-- What conforming leaves alone. -/
theorem C21_conform (pt : PhaseType) (p : Profile) :
    (conform pt p).schedules.map (fun s => (s.unit, s.start, s.duration, s.periods.map fun x => (x.start, x.limit, x.discharge, x.setpoint, x.phaseToUse))) =
      p.schedules.map (fun s => (s.unit, s.start, s.duration, s.periods.map fun x => (x.start, x.limit, x.discharge, x.setpoint, x.phaseToUse))) ∧
    (∀ s ∈ (conform pt p).schedules, ∀ x ∈ s.periods, ∃ s0 ∈ p.schedules, ∃ x0 ∈ s0.periods, ∀ n, x0.phases = some n → x.phases = some n) ∧
    (∀ a, p.validFrom = some a → (conform pt p).validFrom = some a) ∧ (∀ b, p.validTo = some b → (conform pt p).validTo = some b) := by
  obtain ⟨fid, fst, fpu, fki, ftx, fvf, fvt⟩ := conform_fields pt p
  refine ⟨?_, ?_, ?_, ?_⟩
  · cases pt with
    | AC =>
      simp only [conform, conformValidity, List.map_map]
      apply List.map_congr_left
      intro s _
      simp only [Function.comp, List.map_map, Prod.mk.injEq, true_and]
      apply List.map_congr_left
      intro x _
      rfl
    | DC => rfl
    | unknown => rfl
  · intro s hs x hx
    obtain ⟨s0, h0, rfl | rfl⟩ := conform_schedules_mem _ _ _ hs
    · exact ⟨s, h0, x, hx, fun n h => h⟩
    · obtain ⟨x0, hx0, rfl⟩ := List.mem_map.1 hx
      exact ⟨s0, h0, x0, hx0, fun n h => by simp [conformPhases, h]⟩
  · intro a ha; rw [fvf, ha]; rfl
  · intro b hb; rw [fvt, hb]; rfl

/-- A profile is accepted; the same one with unordered periods is not. -/
example : (handleSet exState 0 1 (exDefault 5)).2 = .accepted ∧ (handleSet exState 0 1 (exTx 6)).2 = .accepted ∧
    (handleSet exState 0 1 { exDefault 5 with schedules := [{ exSchedule with periods := [exPeriod 0 16, exPeriod 0 8] }] }).2 =
      .rejected (some .outOfOrder) := by decide +kernel

/-- **C21 (negative limits, violated).** Negative limits are accepted; −1 then means "no limit" in composite schedules, so that the
composite limit of the EVSE is the default of 48 A. -/
theorem C21_negative_limit_violated : ∃ (s : State) (p : Profile),
    (∀ sc ∈ p.schedules, ∀ x ∈ sc.periods, x.limit.l1 = some (-1)) ∧ (handleSet s 0 1 p).2 = .accepted ∧
      (SC2.composite SC2.sortByStack {} (stationOf (handleSet s 0 1 p).1 [] (fun _ => some 0)) 1 .A 0 3600 false).map
        (fun o => (o.start, o.val.limit)) = [(0, 48)] :=
  ⟨exState, { exDefault 5 with schedules := [{ exSchedule with periods := [exPeriod 0 (-1)] }] }, by
    intro sc hsc x hx
    simp at hsc
    subst hsc
    simp at hx
    subst hx
    rfl, by decide +kernel, by decide +kernel⟩

/-! ## C20 -/

/-- Reachable: some history of requests, calls and transactions from an empty store. -/
def Reachable (s : State) : Prop := ∃ env last ops, s = run { env := env, rows := [], last := last } ops

theorem Reachable.inv {s : State} (h : Reachable s) : Inv s.env s.rows := by
  obtain ⟨env, last, ops, rfl⟩ := h
  exact inv_run _ (inv_empty env) ops

theorem disjoint_valid {a b : Profile} (h : Disjoint' a b) (ha : a.validFrom ≠ none ∧ a.validTo ≠ none) (hb : b.validFrom ≠ none ∧ b.validTo ≠ none)
    (t : Int) : ¬ (a.ValidAt t ∧ b.ValidAt t) := by
  rintro ⟨⟨h1, h2⟩, h3, h4⟩
  cases ea : a.validFrom with
  | none => exact ha.1 ea
  | some x =>
    cases eb : a.validTo with
    | none => exact ha.2 eb
    | some y =>
      cases ec : b.validFrom with
      | none => exact hb.1 ec
      | some z =>
        cases ed : b.validTo with
        | none => exact hb.2 ed
        | some w =>
          have i1 := h1 x ea
          have i2 := h2 y eb
          have i3 := h3 z ec
          have i4 := h4 w ed
          simp only [Disjoint', ea, eb, ec, ed, Option.getD_some] at h
          omega

/-- **C20.** In every reachable store profile ids are unique; two profiles with the same EVSE, purpose (not TxProfile) and stack level
are never valid at the same time; no station-wide TxDefaultProfile shares its stack level with one of an EVSE; and every profile
belongs to an existing EVSE and has periods that start at 0 in increasing order. -/
theorem C20_invariants (s : State) (h : Reachable s) :
    UniqueIds s.rows ∧ NoOverlap s.rows ∧ NoMixedTxDefault s.rows ∧ WellFormed s.env s.rows := by
  have hi := h.inv
  refine ⟨hi.ids, ?_, hi.mixed, ?_⟩
  · intro a ha b hb h1 h2 h3 h4 h5 t
    apply disjoint_valid (hi.over a ha b hb h1 h2 h3 h4 h5)
    · obtain ⟨p, hp, _⟩ := (hi.stored a ha).orig
      rw [hp]
      have := conform_fields (s.env.phaseType a.evse) p
      simp [this.2.2.2.2.2.1, this.2.2.2.2.2.2]
    · obtain ⟨p, hp, _⟩ := (hi.stored b hb).orig
      rw [hp]
      have := conform_fields (s.env.phaseType b.evse) p
      simp [this.2.2.2.2.2.1, this.2.2.2.2.2.2]
  · intro r hr
    have hst := hi.stored r hr
    obtain ⟨p, hp, hv⟩ := hst.orig
    obtain ⟨h1, h2⟩ := (validateSchedules_iff _ _ hst.known p).1 hv
    refine ⟨hst.known, ?_, ?_⟩
    · rw [hp]
      cases s.env.phaseType r.evse <;> simpa [conform, conformValidity] using h1
    · intro sc hsc
      rw [hp] at hsc
      obtain ⟨s0, h0, rfl | rfl⟩ := conform_schedules_mem _ _ _ hsc
      · exact ⟨(h2 sc h0).first, (h2 sc h0).increasing⟩
      · obtain ⟨a, rest, e1, e2⟩ := (h2 s0 h0).first
        refine ⟨⟨conformPhases a, rest.map conformPhases, by simp [e1], e2⟩, ?_⟩
        simp only [List.pairwise_map]
        exact (h2 s0 h0).increasing

/-- **C20 (TxProfiles).** If only TxProfiles carry transaction ids, and those of RequestStartTransaction none, then two TxProfiles of a
transaction never have the same stack level. -/
theorem C20_tx_stacks (env : Env) (last : Purpose → Option Int) (ops : List Op) (hc : ∀ op ∈ ops, op.Clean) :
    TxStacks (run { env := env, rows := [], last := last } ops).rows := by
  have := txInv_run { env := env, rows := [], last := last } ⟨by simp, by simp⟩ ops hc
  intro a ha b hb _ _ h1 h2 h3
  exact this.levels a ha b hb h1 h2 h3

def exHistory : List Op := [.set 0 1 (exDefault 5), .set 0 2 (exDefault 6), .set 0 1 (exTx 8), .addApi 0 0 (exExternal 9) "EMS"]

example : (run exState exHistory).rows.map (fun r => (r.evse, r.profile.id)) = [(1, 5), (2, 6), (1, 8), (0, 9)] ∧
    (∀ op ∈ exHistory, op.Clean) ∧ Reachable (run exState exHistory) :=
  ⟨by decide +kernel, by intro op hop; simp [exHistory] at hop; rcases hop with rfl | rfl | rfl | rfl <;> simp [Op.Clean, exDefault, exTx, exExternal],
    exEnv, _, exHistory, rfl⟩

/-- **C20 (TxProfiles, violated otherwise).** RequestStartTransaction can add a second TxProfile with the transaction id and stack level of a
stored one. -/
theorem C20_remote_start_violated : ∃ ops, ¬ TxStacks (run exState ops).rows := by
  refine ⟨[.set 0 1 (exTx 8), .remoteStart 0 1 (exTx 9)], ?_⟩
  intro h
  have := h ⟨1, conform .AC (exTx 8), "CSO"⟩ (by decide +kernel) ⟨1, conform .AC (exTx 9), "CSO"⟩ (by decide +kernel) rfl rfl (by decide) rfl rfl
  exact absurd this (by decide)

/-! ## C54 -/

/-- Profiles that were valid once stay acceptable after conforming, if 3 phases are supplied. -/
theorem conform_rules (env : Env) (evse : Int) (known : 0 ≤ evse ∧ evse ≤ (env.evses.length : Int)) (p : Profile)
    (h3 : env.phaseType evse = .AC → 3 ≤ env.supplyPhases) (h : ∀ s ∈ p.schedules, ScheduleRules env evse p s) :
    ∀ s ∈ (conform (env.phaseType evse) p).schedules, ScheduleRules env evse (conform (env.phaseType evse) p) s := by
  obtain ⟨fid, fst, fpu, fki, ftx, fvf, fvt⟩ := conform_fields (env.phaseType evse) p
  have hdyn : (conform (env.phaseType evse) p).dynInterval = p.dynInterval ∧ (conform (env.phaseType evse) p).dynTime = p.dynTime := by
    cases env.phaseType evse <;> exact ⟨rfl, rfl⟩
  have hs21 : ∀ s s' : Schedule, s'.randomDelay = s.randomDelay → s'.useLocalTime = s.useLocalTime → s'.limitAtSoC = s.limitAtSoC →
      ScheduleRules21 env p s → ScheduleRules21 env (conform (env.phaseType evse) p) s' := by
    intro s s' e1 e2 e3 hh
    obtain ⟨a, b, c, d, e, f, g⟩ := hh
    refine ⟨?_, ?_, ?_, ?_, ?_, ?_, ?_⟩
    · rw [fpu, e1]; exact a
    · rw [fpu]; exact b
    · rw [fpu]; exact c
    · rw [fki]; exact d
    · rw [fki, hdyn.1, hdyn.2]; exact e
    · rw [e2]; exact f
    · rw [e3]; exact g
  by_cases hac : env.phaseType evse = .AC
  · intro s hs
    have hs' : s ∈ p.schedules.map fun s => { s with periods := s.periods.map conformPhases } := by
      rw [hac] at hs; exact hs
    obtain ⟨s0, h0, rfl⟩ := List.mem_map.1 hs'
    obtain ⟨u, ⟨a, rest, e1, e2⟩, inc, per, st, v21⟩ := h s0 h0
    refine ⟨u, ⟨conformPhases a, rest.map conformPhases, by simp [e1], e2⟩, ?_, ?_, ?_, ?_⟩
    · simp only [List.pairwise_map]; exact inc
    · intro x hx
      obtain ⟨x0, hx0, rfl⟩ := List.mem_map.1 hx
      rw [fpu]
      obtain ⟨q1, q2, q3, q4⟩ := per x0 hx0
      refine ⟨?_, ?_, ?_, ?_⟩
      · intro hn
        have := q1 hn
        exact ⟨by simp [conformPhases, this.1], this.2⟩
      · intro hdc
        rw [supply_iff env evse known, hac] at hdc
        cases hdc
      · intro hs n hn
        cases hx : x0.phases with
        | none =>
          simp [conformPhases, hx] at hn
          have := h3 hac
          omega
        | some m =>
          simp [conformPhases, hx] at hn
          have := q3 hs m hx
          omega
      · intro hv
        obtain ⟨r1, r2, r3, r4, r5, r6⟩ := q4 hv
        exact ⟨r1, r2, r3, r4, r5, r6⟩
    · rw [fki]; exact st
    · intro hv; exact hs21 s0 _ rfl rfl rfl (v21 hv)
  · intro s hs
    have hs' : s ∈ p.schedules := by
      cases hx : env.phaseType evse with
      | AC => exact absurd hx hac
      | DC => rw [hx] at hs; exact hs
      | unknown => rw [hx] at hs; exact hs
    obtain ⟨u, f, inc, per, st, v21⟩ := h s hs'
    exact ⟨u, f, inc, by rw [fpu]; exact per, by rw [fki]; exact st, fun hv => hs21 s s rfl rfl rfl (v21 hv)⟩

/-- What decides whether a stored profile can take effect: not an external constraint, and for a TxProfile that its transaction is
running on its EVSE. -/
def Live (env : Env) (r : Row) : Prop :=
  r.profile.purpose ≠ .external ∧ (r.profile.purpose = .tx → ∃ i, r.profile.txId = some i ∧ env.Running r.evse i)

/-- **C54 (partial).** In every history with clean transaction ids, on a station with three phases or without AC, every stored profile
that is not an external constraint, and whose transaction is running if it is a TxProfile, is among the profiles of its EVSE from
which composite schedules are calculated (unless its purpose is to be ignored).
Missing: external constraints (`C22_violated`), single-phase stations (`C54_single_phase_violated`), RequestStartTransaction
(`C54_remote_start_violated`), transaction ids in other profiles (`C54_transaction_id_violated`). -/
theorem C54_stored_profiles_used_partial (env : Env) (last : Purpose → Option Int) (ops : List Op) (hc : ∀ op ∈ ops, op.Clean)
    (s : State) (hs : s = run { env := env, rows := [], last := last } ops)
    (h3 : ∀ evse, s.env.phaseType evse = .AC → 3 ≤ s.env.supplyPhases) (r : Row) (hr : r ∈ s.rows) (hl : Live s.env r)
    (ignore : List Purpose) (hi : r.profile.purpose ∉ ignore) :
    conform (s.env.phaseType r.evse) r.profile ∈ validProfiles s ignore r.evse := by
  have hinv : Inv s.env s.rows := by rw [hs]; exact inv_run _ (inv_empty env) ops
  have htx : TxInv s.rows := by rw [hs]; exact txInv_run _ ⟨by simp, by simp⟩ ops hc
  have hst := hinv.stored r hr
  obtain ⟨p, hp, hv⟩ := hst.orig
  obtain ⟨n1, n2⟩ := (validateSchedules_iff _ _ hst.known p).1 hv
  have hacc : Acceptable s.env s.rows r.evse r.profile := by
    refine ⟨hst.known, ?_, ?_, ⟨?_, hst.reserved, ?_, ?_, ?_⟩, ⟨hst.stationMax, hl.2, hst.priority, hst.supported⟩⟩
    · rw [hp]
      cases s.env.phaseType r.evse <;> simpa [conform, conformValidity] using n1
    · rw [hp]
      exact conform_rules s.env r.evse hst.known p (h3 r.evse) n2
    · intro x hx hid
      rw [mem_unique hinv.ids hx hr hid]
      exact hl.1
    · intro hnt x hx e1 e2 e3 e4
      exact hinv.over x hx r hr e4 (by rw [e1]; exact hnt) e1 e2 e3
    · intro hd x hx e1 e2 e3 e4
      rcases e4 with ⟨a, b⟩ | ⟨a, b⟩
      · exact hinv.mixed r hr x hx hd e1 a b e2.symm
      · exact hinv.mixed x hx r hr e1 hd b a e2
    · intro ht x hx e1 e2
      obtain ⟨i, hi, _⟩ := hl.2 ht
      exact htx.levels x hx r hr (by rw [e1, hi]; simp) e1 e2
  unfold validProfiles
  rw [List.mem_filterMap]
  refine ⟨r.profile, List.mem_map.2 ⟨r, List.mem_filter.2 ⟨hr, by simp⟩, rfl⟩, ?_⟩
  rw [if_pos ⟨(validate_iff _ _ _ _).2 hacc, by simpa using hi⟩]

example : (validProfiles (run exState exHistory) [] 1).map Profile.id = [5, 8] ∧ (validProfiles (run exState exHistory) [] 0) = [] := by
  decide +kernel

/-- **C54 (violated, single phase).** On a single-phase station an accepted profile without a number of phases is stored with three
phases, found invalid when it is read again, and has no effect. -/
theorem C54_single_phase_violated : ∃ (s : State) (p : Profile), (handleSet s 0 1 p).2 = .accepted ∧ p.purpose = .txDefault ∧
    validProfiles (handleSet s 0 1 p).1 [] 1 = [] :=
  ⟨{ env := { exEnv with supplyPhases := 1 }, rows := [] }, exDefault 5, by decide +kernel, rfl, by decide +kernel⟩

/-- **C54 (violated, RequestStartTransaction).** A TxProfile without a transaction id, which is how it comes with
RequestStartTransaction, is never used, whatever happens afterwards: neither before nor after its transaction starts. -/
theorem C54_remote_start_violated (s : State) (ignore : List Purpose) (evse : Int) :
    ∀ p ∈ validProfiles s ignore evse, p.purpose = .tx → p.txId ≠ none := by
  intro p hp ht hn
  unfold validProfiles at hp
  rw [List.mem_filterMap] at hp
  obtain ⟨q, _, hq⟩ := hp
  split at hq
  · rename_i h
    injection hq with hq
    subst hq
    obtain ⟨fid, fst, fpu, fki, ftx, fvf, fvt⟩ := conform_fields (s.env.phaseType evse) q
    obtain ⟨i, hi, _⟩ := ((validate_iff _ _ _ _).1 h.1).purpose.tx (fpu ▸ ht)
    rw [ftx, hi] at hn
    cases hn
  · cases hq

/-- Such a profile is stored, and its transaction starts and ends without using or removing it. -/
example : let p := { exTx 8 with txId := none }
    (run { exState with env := { evses := [{}] } } [.remoteStart 0 1 p, .txStarted 1 7]).rows.map (fun r => r.profile.id) = [8] ∧
    validProfiles (run { exState with env := { evses := [{}] } } [.remoteStart 0 1 p, .txStarted 1 7]) [] 1 = [] ∧
    (run { exState with env := { evses := [{}] } } [.remoteStart 0 1 p, .txStarted 1 7, .txEnded 1]).rows.map (fun r => r.profile.id) = [8] := by
  decide +kernel

/-- **C54 (violated, transaction ids).** An accepted TxDefaultProfile that carries a transaction id switches off the TxProfile of that
transaction with the same stack level, and disappears when the transaction ends. -/
theorem C54_transaction_id_violated : ∃ (s : State) (p q : Profile), p.purpose = .tx ∧ q.purpose = .txDefault ∧
    (handleSet s 0 1 p).2 = .accepted ∧ (handleSet (handleSet s 0 1 p).1 0 2 q).2 = .accepted ∧
    (validProfiles (handleSet s 0 1 p).1 [] 1).length = 1 ∧
    validProfiles (handleSet (handleSet s 0 1 p).1 0 2 q).1 [] 1 = [] ∧
    (step (handleSet (handleSet s 0 1 p).1 0 2 q).1 (.txEnded 1)).rows = [] :=
  ⟨exState, exTx 8, { exDefault 9 with txId := some 7 }, rfl, rfl, by decide +kernel, by decide +kernel, by decide +kernel, by decide +kernel,
    by decide +kernel⟩

/-- Nothing but stored, acceptable profiles of the EVSE is used. -/
theorem C54_used_are_stored (s : State) (ignore : List Purpose) (evse : Int) :
    ∀ p ∈ validProfiles s ignore evse, ∃ r ∈ s.rows, r.evse = evse ∧ p = conform (s.env.phaseType evse) r.profile ∧
      Acceptable s.env s.rows evse r.profile ∧ r.profile.purpose ∉ ignore := by
  intro p hp
  unfold validProfiles at hp
  rw [List.mem_filterMap] at hp
  obtain ⟨q, hq, h⟩ := hp
  obtain ⟨r, hr, rfl⟩ := List.mem_map.1 hq
  rw [List.mem_filter] at hr
  split at h
  · rename_i hh
    injection h with h
    exact ⟨r, hr.1, by simpa using hr.2, h.symm, (validate_iff _ _ _ _).1 hh.1, by simpa using hh.2⟩
  · cases h

/-! ## C22 -/

theorem validProfiles_external (s : State) (ignore : List Purpose) (evse : Int) : ∀ p ∈ validProfiles s ignore evse, p.purpose ≠ .external := by
  intro p hp hx
  obtain ⟨r, hr, _, hp, ha, _⟩ := C54_used_are_stored s ignore evse p hp
  have hx' : r.profile.purpose = .external := by rw [hp, (conform_fields _ _).2.2.1] at hx; exact hx
  exact ha.store.id r hr rfl hx'

/-- **C22 (violated).** Whatever is stored, no external constraint takes part in a composite schedule: at no instant does one decide
about an EVSE. (A stored external constraint conflicts with itself when it is validated again.) -/
theorem C22_violated (s : State) (ignore : List Purpose) (session : Nat → Option Int) :
    ∀ e ∈ (stationOf s ignore session).evses, ∀ now t, SC2.Decides (SC2.Counts (stationOf s ignore session) e .external) e.session now t none := by
  intro e he now t p hp
  exfalso
  obtain ⟨hm, hpu⟩ := hp
  have key : ∀ evse, p ∈ (validProfiles s ignore evse).map Profile.toSC2 → False := by
    intro evse h
    obtain ⟨q, hq, rfl⟩ := List.mem_map.1 h
    have := validProfiles_external s ignore evse q hq
    cases hqp : q.purpose <;> simp [Profile.toSC2, hqp, Purpose.toSC2] at hpu
    exact this hqp
  rcases List.mem_append.1 hm with h | h
  · simp only [stationOf, List.mem_map] at he
    obtain ⟨k, _, rfl⟩ := he
    exact key _ h
  · exact key _ h

/-- An external constraint of 6 A is stored (accepted by the API), and the composite limit is the default of 48 A. -/
example : (run exState [.addApi 0 0 { exExternal 9 with schedules := [{ exSchedule with periods := [exPeriod 0 6] }] } "EMS"]).rows.length = 1 ∧
    (SC2.composite SC2.sortByStack {} (stationOf (run exState [.addApi 0 0 { exExternal 9 with schedules :=
      [{ exSchedule with periods := [exPeriod 0 6] }] } "EMS"]) [] (fun _ => some 0)) 1 .A 0 3600 false).map (fun o => (o.start, o.val.limit)) =
      [(0, 48)] := by decide +kernel

/-! ## From the store to the composite schedule -/

/-- Physical values in all periods of a profile (see `SC2.Profile.Physical`). -/
def Physical (p : Profile) : Prop := p.toSC2.Physical ∧ ∀ x ∈ p.toSC2.periods, x.start ≤ SC.intMax

theorem toSC2_ordered (p : Profile) (h : p.schedules ≠ []) (hf : ∀ s ∈ p.schedules, ∃ a rest, s.periods = a :: rest ∧ a.start = 0)
    (hi : ∀ s ∈ p.schedules, s.periods.Pairwise (fun a b => a.start < b.start)) (hs : ∀ x ∈ p.toSC2.periods, x.start ≤ SC.intMax) :
    p.toSC2.Ordered := by
  cases hp : p.schedules with
  | nil => exact absurd hp h
  | cons s rest =>
    have hper : p.toSC2.periods = s.periods.map Period.toSC2 := by simp [Profile.toSC2, hp]
    obtain ⟨a, r, e1, e2⟩ := hf s (by simp [hp])
    refine ⟨⟨a.toSC2, r.map Period.toSC2, by rw [hper, e1]; rfl, e2⟩, ?_, hs⟩
    rw [hper, List.pairwise_map]
    exact hi s (by simp [hp])

/-- **C19 (from the store).** In every reachable store whose profiles in use have physical values, the assumptions of the theorems about
composite schedules hold: `C19_evse`, `C19_station`, … apply to what was accepted with SetChargingProfile. -/
theorem C19_reachable_sane (s : State) (h : Reachable s) (ignore : List Purpose) (session : Nat → Option Int)
    (hp : ∀ evse, ∀ p ∈ validProfiles s ignore evse, Physical p) : (stationOf s ignore session).Sane := by
  have key : ∀ evse, ∀ p ∈ (validProfiles s ignore evse).map Profile.toSC2, p.Ordered ∧ p.Physical := by
    intro evse p hm
    obtain ⟨q, hq, rfl⟩ := List.mem_map.1 hm
    obtain ⟨r, hr, he, hqr, ha, _⟩ := C54_used_are_stored s ignore evse q hq
    obtain ⟨_, w1, w2⟩ := (C20_invariants s h).2.2.2 r hr
    have hph := hp evse q hq
    refine ⟨?_, hph.1⟩
    apply toSC2_ordered q
    · rw [hqr]
      cases s.env.phaseType evse <;> simpa [conform, conformValidity] using w1
    · intro sc hsc
      rw [hqr] at hsc
      obtain ⟨s0, h0, rfl | rfl⟩ := conform_schedules_mem _ _ _ hsc
      · exact (w2 sc h0).1
      · obtain ⟨a, rest, e1, e2⟩ := (w2 s0 h0).1
        exact ⟨conformPhases a, rest.map conformPhases, by simp [e1], e2⟩
    · intro sc hsc
      rw [hqr] at hsc
      obtain ⟨s0, h0, rfl | rfl⟩ := conform_schedules_mem _ _ _ hsc
      · exact (w2 sc h0).2
      · simp only [List.pairwise_map]; exact (w2 s0 h0).2
    · exact hph.2
  constructor
  · intro p hpm; exact key 0 p hpm
  · intro e he p hpm
    simp only [stationOf, List.mem_map] at he
    obtain ⟨k, _, rfl⟩ := he
    exact key _ p hpm

/-- **C19 (from the store).** What the calculation of composite schedules works on is what is stored: for EVSE `k+1` the time since when it
has a transaction, and for every stored profile of the EVSE in use its id, stack level, purpose, kind, recurrency, validity and the values
of its first schedule. -/
theorem C19_input_is_stored (s : State) (ignore : List Purpose) (session : Nat → Option Int) (k : Nat) (hk : k < s.env.evses.length) :
    ∃ e, (stationOf s ignore session).evses[k]? = some e ∧ e.session = session (k + 1) ∧
      ∀ q ∈ e.profiles, ∃ r ∈ s.rows, r.evse = (k : Int) + 1 ∧ r.profile.purpose ∉ ignore ∧
        q.id = r.profile.id ∧ q.stack = r.profile.stack ∧ q.purpose = r.profile.purpose.toSC2 ∧ q.kind = r.profile.kind.toSC2 ∧
        q.recur = r.profile.recur ∧ q.validFrom = some (r.profile.validFrom.getD 0) ∧ q.validTo = some (r.profile.validTo.getD forever) ∧
        ∀ f rest, r.profile.schedules = f :: rest →
          q.duration = f.duration ∧ q.startSchedule = f.start ∧ q.unit = f.unit ∧
          q.periods.map (fun x => (x.start, x.limit, x.limitL2, x.limitL3)) =
            f.periods.map (fun x => (x.start, x.limit.l1, x.limit.l2, x.limit.l3)) := by
  refine ⟨_, by simp [stationOf, List.getElem?_map, List.getElem?_range hk]; rfl, rfl, ?_⟩
  intro q hq
  obtain ⟨p, hp, rfl⟩ := List.mem_map.1 hq
  obtain ⟨r, hr, he, hpr, _, hi⟩ := C54_used_are_stored s ignore _ p hp
  obtain ⟨f1, f2, f3, f4, _, f6, f7⟩ := conform_fields (s.env.phaseType ((k : Int) + 1)) r.profile
  refine ⟨r, hr, he, hi, ?_⟩
  rw [hpr]
  refine ⟨f1, f2, by rw [← f3]; rfl, by rw [← f4]; rfl, ?_, f6, f7, ?_⟩
  · cases s.env.phaseType ((k : Int) + 1) <;> rfl
  · intro f rest hf
    cases s.env.phaseType ((k : Int) + 1) <;>
      simp [Profile.toSC2, conform, conformValidity, hf, Period.toSC2, conformPhases, Function.comp_def]

example : (stationOf (run exState exHistory) [] (fun k => some k)).evses.map (fun e => (e.session, e.profiles.map (fun q => (q.id, q.stack))))
    = ((List.range exState.env.evses.length).map fun k => ((some ((k : Int) + 1)),
        (validProfiles (run exState exHistory) [] ((k : Int) + 1)).map (fun q => (q.id, q.stack)))) := by decide +kernel

/-- **C54 (end of a transaction).** When the transaction of an EVSE ends, exactly the profiles that name this transaction are removed. -/
theorem C54_transaction_end (s : State) (evse : Int) (i : Nat) (h : (s.env.evse? evse).bind EvseInfo.tx = some i) (r : Row) :
    r ∈ (step s (.txEnded evse)).rows ↔ r ∈ s.rows ∧ r.profile.txId ≠ some i := by
  simp [step, h, deleteTx]

/-- The example history gives a composite schedule with the limits of its TxProfile. -/
example : (SC2.composite SC2.sortByStack {} (stationOf (run exState exHistory) [] (fun _ => some 0)) 1 .A 0 7200 false).map
    (fun o => (o.start, o.val.limit)) = [(0, 16), (3600, 8)] := by decide +kernel

/-! ## C23 -/

theorem selects_iff (q : Query) (r : Row) : q.selects r = true ↔ Asks q r := by
  unfold Query.selects Asks
  by_cases hid : q.ids = []
  · cases h1 : q.evse <;> cases h2 : q.purpose <;> cases h3 : q.stack <;> cases h4 : q.sources <;> simp [hid] <;> tauto
  · cases h1 : q.evse <;> simp [hid]

/-- **C23.** Every stored profile that matches the request is reported, with its EVSE and source; and everything reported is a stored
profile that matches the request, with its EVSE and a source that agrees up to case. -/
theorem C23_sound_complete (rows : List Row) (q : Query) :
    (∀ r ∈ rows, Asks q r → (r.evse, r.source, r.profile) ∈ (reports rows q).flatMap Report.items) ∧
    (∀ i ∈ (reports rows q).flatMap Report.items, ∃ r ∈ rows, Asks q r ∧ i.1 = r.evse ∧ ieq r.source i.2.1 = true ∧ i.2.2 = r.profile) := by
  constructor
  · intro r hr ha
    exact report_complete rows q r hr ((selects_iff q r).2 ha)
  · intro i hi
    obtain ⟨r, hr, hq, h⟩ := report_sound rows q i hi
    exact ⟨r, hr, (selects_iff q r).1 hq, h⟩

/-- **C23 (messages).** No report is empty, no two reports have the same EVSE and source, there is no report exactly if no stored profile
matches (the answer is NoProfiles), and `tbc` is true in all reports but the last. -/
theorem C23_messages (rows : List Row) (q : Query) :
    (∀ m ∈ reports rows q, m.profiles ≠ []) ∧ ((reports rows q).map fun m => (m.evse, m.source)).Nodup ∧
    (reports rows q = [] ↔ ∀ r ∈ rows, ¬ Asks q r) ∧
    ∀ k m, (reports rows q)[k]? = some m → (m.tbc = true ↔ k + 1 < (reports rows q).length) := by
  have hlen : (reports rows q).length = (rawReports rows q).length := by
    have := congrArg List.length (setTbc_map Report.profiles (fun _ _ => rfl) (rawReports rows q))
    simpa [reports_eq] using this
  refine ⟨?_, ?_, ?_, ?_⟩
  · intro m hm
    have h1 : m.profiles ∈ (setTbc (rawReports rows q)).map Report.profiles := List.mem_map.2 ⟨m, hm, rfl⟩
    rw [setTbc_map Report.profiles (fun _ _ => rfl)] at h1
    obtain ⟨r, hr, he⟩ := List.mem_map.1 h1
    rw [← he]
    exact raw_nonempty rows q r hr
  · rw [reports_eq, setTbc_map (fun m => (m.evse, m.source)) (fun _ _ => rfl)]
    exact raw_keys rows q
  · constructor
    · intro h r hr ha
      have := (C23_sound_complete rows q).1 r hr ha
      rw [h] at this
      simp at this
    · intro h
      cases hrep : reports rows q with
      | nil => rfl
      | cons m rest =>
        exfalso
        have hne : m.profiles ≠ [] := by
          have h1 : m.profiles ∈ (setTbc (rawReports rows q)).map Report.profiles :=
            List.mem_map.2 ⟨m, by rw [← reports_eq, hrep]; simp, rfl⟩
          rw [setTbc_map Report.profiles (fun _ _ => rfl)] at h1
          obtain ⟨r, hr, he⟩ := List.mem_map.1 h1
          rw [← he]
          exact raw_nonempty rows q r hr
        obtain ⟨p, hp⟩ := List.exists_mem_of_ne_nil _ hne
        obtain ⟨r, hr, ha, _⟩ := (C23_sound_complete rows q).2 (m.evse, m.source, p) (by
          rw [hrep, List.flatMap_cons]
          exact List.mem_append_left _ (List.mem_map.2 ⟨p, hp, rfl⟩))
        exact h r hr ha
  · intro k m hk
    have h1 : ((reports rows q).map Report.tbc)[k]? = some m.tbc := by rw [List.getElem?_map, hk]; rfl
    rw [reports_eq, setTbc_tbc] at h1
    have hk' : k < (rawReports rows q).length := by
      rw [← hlen]
      exact (List.getElem?_eq_some_iff.1 hk).1
    rw [hlen]
    by_cases hlt : k < (rawReports rows q).length - 1
    · rw [List.getElem?_append_left (by simpa using hlt)] at h1
      simp [hlt] at h1
      constructor
      · intro _; omega
      · intro _; exact h1
    · rw [List.getElem?_append_right (by simpa using hlt)] at h1
      simp only [List.length_replicate, List.getElem?_replicate] at h1
      split at h1
      · injection h1 with h1
        rw [← h1]
        constructor
        · intro h; cases h
        · intro h; omega
      · cases h1

/-- **C23 (once, partial).** If no two sources of stored profiles differ only in case, every matching profile is reported exactly once. -/
theorem C23_once_partial (rows : List Row) (q : Query) (hcase : ∀ a ∈ rows, ∀ b ∈ rows, ieq a.source b.source = true → a.source = b.source)
    (sel : List Row) (hsel : sel.Sublist rows) (hall : ∀ r ∈ rows, Asks q r ↔ r ∈ sel) (hu : UniqueIds rows) :
    ((reports rows q).flatMap Report.items).Perm (sel.map fun r => (r.evse, r.source, r.profile)) := by
  have h := items_perm rows q hcase
  have hnd : rows.Nodup := by
    apply List.Pairwise.imp _ hu
    intro a b hab e
    exact hab (by rw [e])
  have he : (rows.filter q.selects).Perm sel := by
    rw [List.perm_ext_iff_of_nodup (hnd.filter _) (hnd.sublist hsel)]
    intro r
    rw [List.mem_filter, selects_iff]
    constructor
    · rintro ⟨hr, ha⟩; exact (hall r hr).1 ha
    · intro hr; exact ⟨hsel.subset hr, (hall r (hsel.subset hr)).2 hr⟩
  exact h.trans (he.map _)

/-- **C23 (once, violated).** Two profiles of an EVSE whose sources differ only in case are both reported twice. -/
theorem C23_case_violated : ∃ rows : List Row, UniqueIds rows ∧ rows.length = 2 ∧
    ((reports rows {}).flatMap Report.items).length = 4 :=
  ⟨[⟨1, exDefault 5, "EMS"⟩, ⟨1, { exDefault 6 with stack := 2 }, "ems"⟩], by simp [UniqueIds, exDefault], rfl, by decide +kernel⟩

/-- Two sources, two EVSEs: three reports, the last one with tbc = false. -/
example : (reports (run exState exHistory).rows {}).map (fun m => (m.evse, m.source, m.profiles.map Profile.id, m.tbc)) =
    [(2, "CSO", [6], true), (1, "CSO", [5, 8], true), (0, "EMS", [9], false)] := by decide +kernel

/-! ## C55 -/

/-- **C55 (partial).** A ClearChargingProfile request with criteria and without a profile id removes exactly the profiles that match all its
criteria, never external constraints, and is answered Accepted exactly if it removed something. Missing: requests with a profile id
(`C55_by_id_violated`), without criteria (`C55_all_violated`, `C55_empty_violated`) and with empty criteria (nothing is removed). -/
theorem C55_criteria_partial (rows : List Row) (c : Criteria) (hne : c ≠ {}) (hx : c.purpose ≠ some .external) :
    (∀ r, r ∈ (handleClear rows none (some c)).1 ↔ r ∈ rows ∧ ¬ Clears none (some c) r) ∧
    ((handleClear rows none (some c)).2 = true ↔ ∃ r ∈ rows, Clears none (some c) r) := by
  have hsel : ∀ r, c.selects r = true ↔ Clears none (some c) r := by
    intro r
    unfold Criteria.selects Clears
    cases h1 : c.purpose <;> cases h2 : c.stack <;> cases h3 : c.evse <;> simp [h1, h2, h3] <;> tauto
  have hsome : (c.purpose.isSome || c.evse.isSome || c.stack.isSome) = true := by
    obtain ⟨a, b, d⟩ := c
    cases a <;> cases b <;> cases d <;> simp at hne ⊢
  have hx' : (some c).any (fun c => decide (c.purpose = some .external)) = false := by simpa using hx
  unfold handleClear
  rw [if_neg (by rw [hx']; simp)]
  simp only [hsome, if_true]
  constructor
  · intro r
    rw [List.mem_filter, ← hsel]
    simp
  · rw [List.any_eq_true]
    simp only [hsel]

/-- **C55 (by id).** A request with a profile id removes exactly the profile with that id. -/
theorem C55_by_id (rows : List Row) (i : Int) (c : Option Criteria) (hx : ∀ d, c = some d → d.purpose ≠ some .external) :
    (∀ r, r ∈ (handleClear rows (some i) c).1 ↔ r ∈ rows ∧ r.profile.id ≠ i) ∧
    ((handleClear rows (some i) c).2 = true ↔ ∃ r ∈ rows, r.profile.id = i) := by
  have hx' : c.any (fun c => decide (c.purpose = some .external)) = false := by
    cases c with
    | none => rfl
    | some d => simpa using hx d rfl
  unfold handleClear
  rw [if_neg (by rw [hx']; simp)]
  constructor
  · intro r; simp
  · simp

/-- **C55 (violated).** A ClearChargingProfile request with the id of an external constraint removes it. -/
theorem C55_by_id_violated : ∃ (s : State) (i : Int), (∃ r ∈ s.rows, r.profile.purpose = .external) ∧ Reachable s ∧
    handleClear s.rows (some i) none = ([], true) :=
  ⟨run exState [.addApi 0 0 (exExternal 9) "EMS"], 9, by decide +kernel, ⟨exEnv, _, _, rfl⟩, by decide +kernel⟩

/-- **C55 (violated).** A ClearChargingProfile request without id and criteria removes external constraints too. -/
theorem C55_all_violated (rows : List Row) : handleClear rows none none = ([], true) := rfl

/-- **C55 (violated).** ClearChargingProfile without id and criteria is answered Accepted although there was no profile to remove. -/
theorem C55_empty_violated : ∃ rows : List Row, rows = [] ∧ (handleClear rows none none).2 = true := ⟨[], rfl, rfl⟩

example : (handleClear (run exState exHistory).rows none (some { stack := some 1 })).1.map (fun r => r.profile.id) = [9] := by decide +kernel

/-! ## C56 -/

/-- Time of an event, if it can add a profile. -/
def Op.time? : Op → Option Int
  | .set now _ _ => some now
  | .addApi now _ _ _ => some now
  | .remoteStart now _ _ => some now
  | _ => none

theorem last_ge_step (s : State) (op : Op) (u : Purpose) (t0 : Int) (hl : ∃ t, s.last u = some t ∧ t0 ≤ t) (ht : ∀ t, op.time? = some t → t0 ≤ t) :
    (∃ t, (step s op).last u = some t ∧ t0 ≤ t) ∧ (step s op).env.v21 = s.env.v21 ∧ (step s op).env.rateLimit = s.env.rateLimit := by
  have hst : ∀ now p, t0 ≤ now → (∃ t, (stamp s now p).last u = some t ∧ t0 ≤ t) ∧ (stamp s now p).env = s.env := by
    intro now p hn
    unfold stamp
    split
    · by_cases hu : u = p.purpose
      · exact ⟨⟨now, by simp [hu], hn⟩, rfl⟩
      · obtain ⟨t, h1, h2⟩ := hl
        exact ⟨⟨t, by simp [hu, h1], h2⟩, rfl⟩
    · exact ⟨hl, rfl⟩
  have hadd : ∀ now evse p src o, t0 ≤ now → (∃ t, (add s now evse p src o).1.last u = some t ∧ t0 ≤ t) ∧ (add s now evse p src o).1.env = s.env := by
    intro now evse p src o hn
    unfold add
    split
    · simp only
      split
      · exact hst now p hn
      · exact hst now p hn
    · exact ⟨hl, rfl⟩
  cases op with
  | set now evse p =>
    have h := hadd now evse p "CSO" .set (ht now rfl)
    simp only [step, handleSet]
    split
    · exact ⟨hl, rfl, rfl⟩
    · split
      · exact ⟨hl, rfl, rfl⟩
      · exact ⟨h.1, by simp only [h.2], by simp only [h.2]⟩
  | addApi now evse p src =>
    have h := hadd now evse p src .set (ht now rfl)
    exact ⟨h.1, by simp only [step, h.2], by simp only [step, h.2]⟩
  | remoteStart now evse p =>
    have h := hadd now evse p "CSO" .remoteStart (ht now rfl)
    exact ⟨h.1, by simp only [step, h.2], by simp only [step, h.2]⟩
  | clear id c => exact ⟨hl, rfl, rfl⟩
  | txStarted evse i => exact ⟨hl, rfl, rfl⟩
  | txEnded evse =>
    simp only [step]
    split
    · exact ⟨hl, rfl, rfl⟩
    · exact ⟨hl, rfl, rfl⟩

theorem last_ge_run (s : State) (ops : List Op) (u : Purpose) (t0 : Int) (hl : ∃ t, s.last u = some t ∧ t0 ≤ t)
    (ht : ∀ op ∈ ops, ∀ t, op.time? = some t → t0 ≤ t) :
    (∃ t, (run s ops).last u = some t ∧ t0 ≤ t) ∧ (run s ops).env.v21 = s.env.v21 ∧ (run s ops).env.rateLimit = s.env.rateLimit := by
  induction ops generalizing s with
  | nil => exact ⟨hl, rfl, rfl⟩
  | cons op rest ih =>
    have h1 := last_ge_step s op u t0 hl (ht op (by simp))
    have h2 := ih (step s op) h1.1 (fun o ho => ht o (by simp [ho]))
    exact ⟨h2.1, h2.2.1.trans h1.2.1, h2.2.2.trans h1.2.2⟩

/-- **C56.** OCPP 2.1 with a rate limit of `l` seconds: between two accepted SetChargingProfile requests for the same purpose at least `l`
seconds pass, whatever happens in between. -/
theorem C56_rate_limit (s : State) (hv : s.env.v21 = true) (l : Int) (hl : s.env.rateLimit = some l) (t1 t2 e1 e2 : Int) (p1 p2 : Profile)
    (hp : p1.purpose = p2.purpose) (ops : List Op) (hops : ∀ op ∈ ops, ∀ t, op.time? = some t → t1 ≤ t)
    (h1 : (handleSet s t1 e1 p1).2 = .accepted) (h2 : (handleSet (run (handleSet s t1 e1 p1).1 ops) t2 e2 p2).2 = .accepted) :
    l ≤ t2 - t1 := by
  have hlast : ∃ t, (handleSet s t1 e1 p1).1.last p1.purpose = some t ∧ t1 ≤ t := by
    obtain ⟨a1, a2, a3, a4⟩ := (C21_accepted_iff s t1 e1 p1).1 h1
    rw [← validate_iff] at a3
    rw [← rateLimited_iff] at a4
    refine ⟨t1, ?_, by omega⟩
    simp [handleSet, a1, a2, add, a3, a4, stamp, hv, hl]
  have henv : (handleSet s t1 e1 p1).1.env = s.env := (handleSet_cases s t1 e1 p1).1
  obtain ⟨⟨t, ht, hge⟩, hv', hl'⟩ := last_ge_run _ ops p1.purpose t1 hlast hops
  have hr := ((C21_accepted_iff _ _ _ _).1 h2).2.2.2
  have := hr (by rw [hv', henv]; exact hv) l (by rw [hl', henv]; exact hl) t (by rw [← hp]; exact ht)
  omega

/-- Rejected requests count as well: with a limit of 10 s a request every 8 s is accepted only the first time. -/
example : let s : State := { env := { exEnv with v21 := true, rateLimit := some 10 }, rows := [] }
    (handleSet s 0 1 (exDefault 5)).2 = .accepted ∧ (handleSet (step s (.set 0 1 (exDefault 5))) 8 1 (exDefault 5)).2 = .rejected (some .rateLimit) ∧
    (handleSet (run s [.set 0 1 (exDefault 5), .set 8 1 (exDefault 5)]) 16 1 (exDefault 5)).2 = .rejected (some .rateLimit) ∧
    (handleSet (step s (.set 0 1 (exDefault 5))) 10 1 (exDefault 5)).2 = .accepted := by decide +kernel

end Verif.PS
