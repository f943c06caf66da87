import Verif.ProfileBoot.Model
import Verif.ProfileStore.Theorems
/-
Theorems about stored charging profiles at the start: C229, C230.
-/
set_option linter.unusedSimpArgs false
set_option linter.unusedVariables false

namespace Verif.PS
open Verif.SC16 (RUnit)

/-! ### Lemmas -/

theorem mem_insertByEvse (r x : Row) (l : List Row) : x ∈ insertByEvse r l ↔ x = r ∨ x ∈ l := by
  induction l with
  | nil => simp [insertByEvse]
  | cons y l ih =>
    unfold insertByEvse
    split
    · simp
    · simp only [List.mem_cons, ih]
      constructor
      · rintro (h | h | h)
        · exact .inr (.inl h)
        · exact .inl h
        · exact .inr (.inr h)
      · rintro (h | h | h)
        · exact .inr (.inl h)
        · exact .inl h
        · exact .inr (.inr h)

theorem mem_byEvse (rows : List Row) (x : Row) : x ∈ byEvse rows ↔ x ∈ rows := by
  have : ∀ (rows l : List Row), x ∈ rows.foldl (fun l r => insertByEvse r l) l ↔ x ∈ rows ∨ x ∈ l := by
    intro rows
    induction rows with
    | nil => intro l; simp
    | cons r rows ih =>
      intro l
      rw [List.foldl_cons, ih, mem_insertByEvse, List.mem_cons]
      constructor
      · rintro (h | h | h)
        · exact .inl (.inr h)
        · exact .inl (.inl h)
        · exact .inr h
      · rintro ((h | h) | h)
        · exact .inr (.inl h)
        · exact .inl h
        · exact .inr (.inr h)
  simp [byEvse, this]

/-- Fewer stored profiles, fewer conflicts. -/
theorem Acceptable.mono {env : Env} {rows rows' : List Row} {evse : Int} {p : Profile} (h : Acceptable env rows evse p)
    (hs : ∀ x ∈ rows', x ∈ rows) : Acceptable env rows' evse p :=
  ⟨h.known, h.nonempty, h.schedules,
    ⟨fun r hr => h.store.id r (hs r hr), h.store.reserved, fun hp r hr => h.store.validity hp r (hs r hr),
      fun hp r hr => h.store.txDefault hp r (hs r hr), fun hp r hr => h.store.tx hp r (hs r hr)⟩, h.purpose⟩

theorem bootCheck_sub {env : Env} {db : List Row} {r x : Row} (h : x ∈ bootCheck env db r) : x ∈ db := by
  unfold bootCheck at h
  split at h
  · exact h
  · exact (List.mem_filter.mp h).1

theorem fold_sub {env : Env} (l : List Row) : ∀ (db : List Row) {x : Row}, x ∈ l.foldl (bootCheck env) db → x ∈ db := by
  induction l with
  | nil => intro db x h; exact h
  | cons r l ih => intro db x h; exact bootCheck_sub (ih _ h)

/-- What is left of the listed profiles is acceptable. -/
theorem fold_valid {env : Env} (l : List Row) : ∀ (db : List Row) (r : Row), r ∈ l → r ∈ l.foldl (bootCheck env) db →
    Acceptable env (l.foldl (bootCheck env) db) r.evse r.profile := by
  induction l with
  | nil => intro db r h; cases h
  | cons x l ih =>
    intro db r hr hin
    rw [List.foldl_cons] at hin ⊢
    rcases List.mem_cons.mp hr with rfl | hr
    · have hdb := fold_sub l _ hin
      by_cases hv : validate env db r.evse r.profile .set = .valid
      · refine ((validate_iff _ _ _ _).mp hv).mono (fun y hy => ?_)
        exact bootCheck_sub (fold_sub l _ hy)
      · exfalso
        unfold bootCheck at hdb
        rw [if_neg hv] at hdb
        simpa using (List.mem_filter.mp hdb).2
    · exact ih _ r hr hin

/-- A profile that is acceptable from the start stays. -/
theorem fold_kept {env : Env} (rows : List Row) (hu : UniqueIds rows) {r : Row} (hr : r ∈ rows)
    (hv : Acceptable env rows r.evse r.profile) (l : List Row) : ∀ db : List Row, (∀ x ∈ l, x ∈ rows) → (∀ x ∈ db, x ∈ rows) →
    r ∈ db → r ∈ l.foldl (bootCheck env) db := by
  induction l with
  | nil => intro db _ _ h; exact h
  | cons x l ih =>
    intro db hl hdb hin
    rw [List.foldl_cons]
    refine ih _ (fun y hy => hl y (List.mem_cons_of_mem _ hy)) (fun y hy => hdb y (bootCheck_sub hy)) ?_
    unfold bootCheck
    split
    · exact hin
    · rename_i hnv
      refine List.mem_filter.mpr ⟨hin, ?_⟩
      simp only [decide_eq_true_eq]
      intro hid
      have := mem_unique hu hr (hl x (by simp)) hid
      subst this
      exact hnv ((validate_iff _ _ _ _).mpr (hv.mono hdb))

/-! ### C229: invalid profiles are removed -/

/-- C229: after the start of a station with smart charging every stored profile is one SetChargingProfile
would accept beside the others (checked by the rules of OCPP 2.0.1, as the version is not agreed yet). -/
theorem C229_valid (env : Env) (hav : env.available = true) (rows : List Row) (r : Row) (hr : r ∈ bootClear env rows) :
    Acceptable { env with v21 := false } (bootClear env rows) r.evse r.profile := by
  unfold bootClear at hr ⊢
  rw [if_pos hav] at hr ⊢
  exact fold_valid _ rows r ((mem_byEvse _ _).mpr (fold_sub _ rows hr)) hr

/-- C229: nothing is added or changed, and a profile that was acceptable beside the others is kept. -/
theorem C229_kept (env : Env) (rows : List Row) :
    (∀ r ∈ bootClear env rows, r ∈ rows) ∧
    (UniqueIds rows → ∀ r ∈ rows, Acceptable { env with v21 := false } rows r.evse r.profile → r ∈ bootClear env rows) := by
  unfold bootClear
  split
  · refine ⟨fun r hr => fold_sub _ rows hr, fun hu r hr hv => ?_⟩
    exact fold_kept rows hu hr hv _ rows (fun x hx => (mem_byEvse _ _).mp hx) (fun x hx => hx) hr
  · exact ⟨fun r hr => hr, fun _ r hr _ => hr⟩

/-- Of two profiles in conflict one is removed, and a TxProfile whose transaction is over. -/
example : (bootClear exEnv [⟨1, exDefault 5, "CSO"⟩, ⟨1, exDefault 6, "CSO"⟩, ⟨1, { exTx 8 with txId := some 9 }, "CSO"⟩,
    ⟨1, exTx 10, "CSO"⟩]).map (fun r => r.profile.id) = [6, 10] := by decide +kernel

/-! ### C230: valid profiles survive -/

theorem not_dc_acceptable {env : Env} {rows : List Row} {evse : Int} {p : Profile} (h : Acceptable env rows evse p)
    (hdc : ¬ Supply env evse .DC ∨ env.v21 = false) : Acceptable { env with v21 := false } rows evse p := by
  have sup : ∀ pt, Supply { env with v21 := false } evse pt → Supply env evse pt := by
    intro pt hs
    cases hs with
    | evse k e he => exact .evse k e he
    | stationAC a => exact .stationAC a
    | stationDC a => exact .stationDC a
    | stationUnknown a b c => exact .stationUnknown a b c
  refine ⟨h.known, h.nonempty, fun s hs => ?_, ⟨h.store.id, fun hf => by simp at hf, h.store.validity, h.store.txDefault, h.store.tx⟩,
    ⟨h.purpose.stationMax, h.purpose.tx, h.purpose.priority, h.purpose.supported⟩⟩
  have hsr := h.schedules s hs
  refine ⟨hsr.unit, hsr.first, hsr.increasing, fun x hx => ?_, hsr.start, fun hf => by simp at hf⟩
  have hpr := hsr.periods x hx
  refine ⟨hpr.phaseToUse, fun hd => ?_, fun ha => hpr.ac (sup _ ha), fun hf => by simp at hf⟩
  rcases hpr.dc (sup _ hd) with h1 | ⟨h1, _⟩
  · exact .inl h1
  · rcases hdc with hdc | hdc
    · exact absurd (sup _ hd) hdc
    · rw [hdc] at h1; cases h1

/-- The profiles of C54 are acceptable as they are stored. -/
theorem stored_acceptable (env : Env) (last : Purpose → Option Int) (ops : List Op) (hc : ∀ op ∈ ops, op.Clean)
    (s : State) (hs : s = run { env := env, rows := [], last := last } ops)
    (h3 : ∀ evse, s.env.phaseType evse = .AC → 3 ≤ s.env.supplyPhases) (r : Row) (hr : r ∈ s.rows) (hl : Live s.env r) :
    Acceptable s.env s.rows r.evse r.profile := by
  have h := C54_stored_profiles_used_partial env last ops hc s hs h3 r hr hl [] (by simp)
  unfold validProfiles at h
  rw [List.mem_filterMap] at h
  obtain ⟨p, hp, hq⟩ := h
  split at hq
  · rename_i hv
    injection hq with hq
    obtain ⟨r', hr', rfl⟩ := List.mem_map.mp hp
    obtain ⟨hr', he⟩ := List.mem_filter.mp hr'
    simp only [decide_eq_true_eq] at he
    have hid : r'.profile.id = r.profile.id := by
      have e1 := (conform_fields (s.env.phaseType r.evse) r'.profile).1
      have e2 := (conform_fields (s.env.phaseType r.evse) r.profile).1
      rw [← e1, hq, e2]
    have hinv : Inv s.env s.rows := by rw [hs]; exact inv_run _ (inv_empty env) ops
    have := mem_unique hinv.ids hr' hr hid
    subst this
    exact (validate_iff _ _ _ _).mp hv.1
  · cases hq

/-- **C230 (partial).** Whatever happened before: if the station starts again with the same configuration and
the same transactions running, every stored profile that is no external constraint, whose transaction runs if
it is a TxProfile, is still stored afterwards, unchanged.  As in C54 the station has three phases where it has
AC, and transaction ids are clean; with OCPP 2.1 the EVSE must not be a DC one.
Missing: `C230_external_violated`, `C230_dc_violated`, `C230_single_phase_violated`. -/
theorem C230_partial (env : Env) (last : Purpose → Option Int) (ops : List Op) (hc : ∀ op ∈ ops, op.Clean)
    (s : State) (hs : s = run { env := env, rows := [], last := last } ops)
    (h3 : ∀ evse, s.env.phaseType evse = .AC → 3 ≤ s.env.supplyPhases) (r : Row) (hr : r ∈ s.rows) (hl : Live s.env r)
    (hdc : ¬ Supply s.env r.evse .DC ∨ s.env.v21 = false) : r ∈ bootClear s.env s.rows := by
  have hinv : Inv s.env s.rows := by rw [hs]; exact inv_run _ (inv_empty env) ops
  exact (C229_kept s.env s.rows).2 hinv.ids r hr
    (not_dc_acceptable (stored_acceptable env last ops hc s hs h3 r hr hl) hdc)

/-- The hypotheses are met: of the profiles of the history three survive, the external constraint does not. -/
example : (bootClear (run exState exHistory).env (run exState exHistory).rows).map (fun r => r.profile.id) = [5, 6, 8] ∧
    (∀ op ∈ exHistory, op.Clean) ∧ (run exState exHistory).env.v21 = false ∧
    (∀ evse, (run exState exHistory).env.phaseType evse = .AC → 3 ≤ (run exState exHistory).env.supplyPhases) :=
  ⟨by decide +kernel, by intro op hop; simp [exHistory] at hop; rcases hop with rfl | rfl | rfl | rfl <;> simp [Op.Clean, exDefault, exTx, exExternal],
    by decide +kernel, fun _ _ => by decide +kernel⟩

/-- **C230 (violated, external constraints).** No limit of an external system survives a restart: its own row
counts as a conflict. -/
theorem C230_external_violated (env : Env) (hav : env.available = true) (rows : List Row) :
    ∀ r ∈ bootClear env rows, r.profile.purpose ≠ .external := by
  intro r hr
  exact (C229_valid env hav rows r hr).store.id r hr rfl

/-- Such a limit can be stored. -/
example : ∃ s, Reachable s ∧ s.env.available = true ∧ s.rows.map (fun r => r.profile.purpose) = [.external] ∧
    bootClear s.env s.rows = [] :=
  ⟨run exState [.addApi 0 0 (exExternal 9) "EMS"], ⟨exEnv, _, _, rfl⟩, by decide +kernel, by decide +kernel, by decide +kernel⟩

/-- A DC station of OCPP 2.1 that lets the CSMS choose the phases. -/
def exDc : State := { env := { v21 := true, supplyPhases := 0, evses := [{ phaseType := .DC, dcControl := true }] }, rows := [] }

/-- A profile for it that names the number of phases. -/
def exPhases : Profile :=
  { exDefault 5 with
    schedules := [{ unit := .A, start := some 0, periods := [{ start := 0, limit := ⟨some 16, none, none⟩, phases := some 3 }] }] }

/-- **C230 (violated, DC and OCPP 2.1).** At the start the version is not agreed yet, so that a profile with a
number of phases that OCPP 2.1 allows for this EVSE is removed. -/
theorem C230_dc_violated : (handleSet exDc 0 1 exPhases).2 = .accepted ∧ (handleSet exDc 0 1 exPhases).1.rows.length = 1 ∧
    bootClear (handleSet exDc 0 1 exPhases).1.env (handleSet exDc 0 1 exPhases).1.rows = [] := by decide +kernel

/-- **C230 (violated, single phase).** An accepted profile without a number of phases was stored with three, and
is removed from a single-phase station. -/
theorem C230_single_phase_violated : ∃ (s : State) (p : Profile), (handleSet s 0 1 p).2 = .accepted ∧ p.purpose = .txDefault ∧
    (handleSet s 0 1 p).1.rows.length = 1 ∧ bootClear (handleSet s 0 1 p).1.env (handleSet s 0 1 p).1.rows = [] :=
  ⟨{ env := { exEnv with supplyPhases := 1 }, rows := [] }, exDefault 5, by decide +kernel, rfl, by decide +kernel, by decide +kernel⟩

end Verif.PS
