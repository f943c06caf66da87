import Verif.Meter.Triggers
/-
MaxEnergyOnInvalidId over whole histories (C105): readings, answers of the CSMS that refuse the token, transactions that start and end,
restarts of the station.
-/
set_option linter.unusedSimpArgs false
set_option linter.unusedVariables false

namespace Verif.Met

/-- An EVSE as far as MaxEnergyOnInvalidId is concerned: the register of its last reading (`meter_value`, evse.cpp l.381-391), and its
transaction. -/
structure LimitState where
  register : Option Rat := none
  tx : Option InvalidTx := none
  deriving DecidableEq, Repr

inductive LimitOp
  /-- `on_meter_value`, evse.cpp l.359-366, with the register of the reading. -/
  | reading (r : Option Rat)
  /-- `open_transaction`, evse.cpp l.240-283. -/
  | begin
  /-- The CSMS answers a TransactionEvent of the running transaction with a status other than Accepted, without StopTxOnInvalidId:
  `handle_transaction_event_response`, transaction.cpp l.309-336, `start_checking_max_energy_on_invalid_id`, evse.cpp l.313-320. -/
  | refused
  /-- `release_transaction`, evse.cpp l.339-350. -/
  | finish
  /-- The station starts again; `resume`: ResumeTransactionsOnBoot (`try_resume_transaction`, evse.cpp l.179-204). -/
  | restart (resume : Bool)
  deriving DecidableEq, Repr

/-- `check_max_energy_on_invalid_id`, evse.cpp l.393-412: the state, and whether charging is paused. -/
def limitCheck (max : Option Int) (s : LimitState) : LimitState × Bool :=
  match s.tx with
  | none => (s, false)
  | some t => ({ s with tx := some (checkMax max t s.register).1 }, (checkMax max t s.register).2)

/-- `transaction_get`, v2/database_handler.cpp l.685-712: neither the flag nor the energy at the start is stored. -/
def resumed (t : InvalidTx) : InvalidTx := {}

/-- A refusal without MaxEnergyOnInvalidId pauses at once, transaction.cpp l.331. -/
def refuse (max : Option Int) (s : LimitState) : LimitState × Bool :=
  match s.tx, max with
  | none, _ => (s, false)
  | some _, none => (s, true)
  | some t, some _ => limitCheck max { s with tx := some { t with check := true } }

/-- One operation; whether charging is paused. -/
def limitStep (max : Option Int) (s : LimitState) : LimitOp → LimitState × Bool
  | .reading r => limitCheck max { s with register := r }
  | .begin => ({ s with tx := some { start := s.register } }, false)
  | .refused => refuse max s
  | .finish => ({ s with tx := none }, false)
  | .restart resume => ({ tx := if resume then s.tx.map resumed else none }, false)

def limitRun (max : Option Int) (s : LimitState) (ops : List LimitOp) : LimitState := ops.foldl (fun s op => (limitStep max s op).1) s

/-- Which operations pause charging. -/
def pauses (max : Option Int) (s : LimitState) : List LimitOp → List Bool
  | [] => []
  | op :: ops => (limitStep max s op).2 :: pauses max (limitStep max s op).1 ops

/-! ### Specification -/

/-- Readings and refusals, nothing else: one transaction goes on. -/
def Goes : LimitOp → Prop
  | .reading _ => True
  | .refused => True
  | _ => False

/-- The register after some operations: the one of the last reading. -/
def lastReading (r : Option Rat) (ops : List LimitOp) : Option Rat :=
  ops.foldl (fun r op => match op with
    | .reading x => x
    | _ => r) r

/-- With the operations up to and including number `i`, the limit is reached. -/
def ReachedAt (mx : Int) (start : Rat) (r : Option Rat) (ops : List LimitOp) (i : Nat) : Prop :=
  Exceeded mx start (lastReading r (ops.take (i + 1)))

/-! ### Lemmas -/

theorem checkMax_iff (mx : Int) (hmx : 0 < mx) (start : Rat) (r : Option Rat) :
    (Exceeded mx start r → checkMax (some mx) { check := true, start := some start } r = ({ check := false, start := some start }, true)) ∧
    (¬ Exceeded mx start r → checkMax (some mx) { check := true, start := some start } r = ({ check := true, start := some start }, false)) := by
  unfold checkMax
  cases r with
  | none => exact ⟨(by rintro ⟨x, hx, _⟩; cases hx), fun _ => rfl⟩
  | some x =>
    have he : Exceeded mx start (some x) ↔ lround (x - start) ≥ mx := by
      rw [lround_ge _ _ hmx]; simp [Exceeded]
    rw [he]
    exact ⟨fun h => by simp [h], fun h => by simp [h]⟩

theorem checkMax_off (max : Option Int) (st : Option Rat) (r : Option Rat) :
    checkMax max { check := false, start := st } r = ({ check := false, start := st }, false) := by
  unfold checkMax; cases max <;> cases r <;> cases st <;> rfl

/-- The flag of the check after one operation. -/
theorem goes_step (mx : Int) (hmx : 0 < mx) (start : Rat) (b : Bool) (r : Option Rat) (op : LimitOp) (hg : Goes op) :
    ∃ b', limitStep (some mx) { register := r, tx := some { check := b, start := some start } } op =
        ({ register := lastReading r [op], tx := some { check := b', start := some start } }, decide (((b || decide (op = .refused)) = true) ∧ b' = false)) ∧
      (b' = true ↔ (b = true ∨ op = .refused) ∧ ¬ Exceeded mx start (lastReading r [op])) := by
  have key : ∀ r', ∃ b', limitCheck (some mx) { register := r', tx := some { check := true, start := some start } } =
      ({ register := r', tx := some { check := b', start := some start } }, decide (b' = false)) ∧ (b' = true ↔ ¬ Exceeded mx start r') := by
    intro r'
    by_cases hx : Exceeded mx start r'
    · exact ⟨false, by simp [limitCheck, (checkMax_iff mx hmx start r').1 hx], by simp [hx]⟩
    · exact ⟨true, by simp [limitCheck, (checkMax_iff mx hmx start r').2 hx], by simp [hx]⟩
  cases op with
  | reading x =>
    cases b with
    | true =>
      obtain ⟨b', h1, h2⟩ := key x
      exact ⟨b', by simpa [limitStep, lastReading] using h1, by simpa [lastReading] using h2⟩
    | false => exact ⟨false, by simp [limitStep, limitCheck, checkMax_off, lastReading], by simp⟩
  | refused =>
    obtain ⟨b', h1, h2⟩ := key r
    exact ⟨b', by simpa [limitStep, refuse, lastReading] using h1, by simpa [lastReading] using h2⟩
  | begin => cases hg
  | finish => cases hg
  | restart _ => cases hg

theorem pauses_goes (mx : Int) (hmx : 0 < mx) (start : Rat) (ops : List LimitOp) : ∀ (b : Bool) (r : Option Rat), (∀ op ∈ ops, Goes op) →
    ∀ i, (pauses (some mx) { register := r, tx := some { check := b, start := some start } } ops)[i]? = some true ↔
      i < ops.length ∧ ReachedAt mx start r ops i ∧
        ((b = true ∧ ∀ k < i, ¬ ReachedAt mx start r ops k) ∨
          ∃ j ≤ i, ops[j]? = some .refused ∧ ∀ k, j ≤ k → k < i → ¬ ReachedAt mx start r ops k) := by
  induction ops with
  | nil => intro b r _ i; simp [pauses]
  | cons op ops ih =>
    intro b r hg i
    obtain ⟨b', h1, h2⟩ := goes_step mx hmx start b r op (hg op (by simp))
    have hr0 : ReachedAt mx start r (op :: ops) 0 ↔ Exceeded mx start (lastReading r [op]) := by simp [ReachedAt]
    have hrs : ∀ k, ReachedAt mx start r (op :: ops) (k + 1) ↔ ReachedAt mx start (lastReading r [op]) ops k := by
      intro k; unfold ReachedAt; rw [List.take_succ_cons]; rfl
    rw [pauses, h1]
    cases i with
    | zero =>
      simp only [List.getElem?_cons_zero, Option.some.injEq, decide_eq_true_eq, hr0]
      have hb : b' = false ↔ ¬ b' = true := by cases b' <;> simp
      rw [hb, h2]
      simp only [List.length_cons, Nat.zero_lt_succ, true_and, Nat.not_lt_zero, false_implies, implies_true, and_true,
        Nat.le_zero_eq, Bool.or_eq_true, decide_eq_true_eq]
      constructor
      · rintro ⟨ha, hb⟩
        have hx : Exceeded mx start (lastReading r [op]) := by
          by_contra hx; exact hb ⟨ha, hx⟩
        refine ⟨hx, ?_⟩
        rcases ha with ha | ha
        · exact .inl ha
        · exact .inr ⟨0, rfl, by simp [ha]⟩
      · rintro ⟨hx, ha⟩
        refine ⟨?_, fun h => h.2 hx⟩
        rcases ha with ha | ⟨j, rfl, hj⟩
        · exact .inl ha
        · exact .inr (by simpa using hj)
    | succ i =>
      rw [List.getElem?_cons_succ, ih b' _ (fun x hx => hg x (by simp [hx])) i]
      rw [hrs]
      constructor
      · rintro ⟨hi, hx, ha⟩
        refine ⟨by simpa using hi, hx, ?_⟩
        rcases ha with ⟨hb, hk⟩ | ⟨j, hj, hop, hk⟩
        · have hb := h2.mp hb
          have hall : ∀ k < i + 1, ¬ ReachedAt mx start r (op :: ops) k := by
            intro k hk'
            cases k with
            | zero => rw [hr0]; exact hb.2
            | succ k => rw [hrs]; exact hk k (by omega)
          rcases hb.1 with hb' | hb'
          · exact .inl ⟨hb', hall⟩
          · exact .inr ⟨0, by omega, by simp [hb'], fun k _ hk' => hall k hk'⟩
        · refine .inr ⟨j + 1, by omega, by simpa using hop, ?_⟩
          intro k hk1 hk2
          cases k with
          | zero => omega
          | succ k => rw [hrs]; exact hk k (by omega) (by omega)
      · rintro ⟨hi, hx, ha⟩
        refine ⟨by simpa using hi, hx, ?_⟩
        rcases ha with ⟨hb, hk⟩ | ⟨j, hj, hop, hk⟩
        · refine .inl ⟨h2.mpr ⟨.inl hb, ?_⟩, fun k hk' => ?_⟩
          · rw [← hr0]; exact hk 0 (by omega)
          · rw [← hrs]; exact hk (k + 1) (by omega)
        · cases j with
          | zero =>
            have hop : op = .refused := by simpa using hop
            refine .inl ⟨h2.mpr ⟨.inr hop, ?_⟩, fun k hk' => ?_⟩
            · rw [← hr0]; exact hk 0 (by omega) (by omega)
            · rw [← hrs]; exact hk (k + 1) (by omega) (by omega)
          | succ j =>
            refine .inr ⟨j, by omega, by simpa using hop, fun k hk1 hk2 => ?_⟩
            rw [← hrs]; exact hk (k + 1) (by omega) (by omega)

/-! ### C105 -/

/-- **C105 (partial), over histories.** Whatever happened before: a transaction starts when the register reads `start`; then come readings
and refusals of the token, in any order.  Charging is paused exactly when the limit has been reached (rounded to Wh) and a refusal came
since which it had not: at the refusal itself or at the first reading after it, and once per refusal.
Missing: there was a reading before the start (`C105_violated`), and no restart (`C105_restart_violated`). -/
theorem C105_history_partial (mx : Int) (hmx : 0 < mx) (before : List LimitOp) (start : Rat) (ops : List LimitOp) (hg : ∀ op ∈ ops, Goes op)
    (hs : (limitRun (some mx) {} before).register = some start) (i : Nat) :
    (pauses (some mx) (limitRun (some mx) {} (before ++ [.begin])) ops)[i]? = some true ↔
      i < ops.length ∧ ReachedAt mx start (some start) ops i ∧
        ∃ j ≤ i, ops[j]? = some .refused ∧ ∀ k, j ≤ k → k < i → ¬ ReachedAt mx start (some start) ops k := by
  have e : limitRun (some mx) {} (before ++ [.begin]) = { register := some start, tx := some { check := false, start := some start } } := by
    have : limitRun (some mx) {} (before ++ [.begin]) = (limitStep (some mx) (limitRun (some mx) {} before) .begin).1 := by simp [limitRun]
    rw [this]
    simp [limitStep, hs]
  rw [e, pauses_goes mx hmx start ops false (some start) hg i]
  simp

/-- 500 Wh: refused, reached at the second reading, refused again. -/
example : (limitRun (some 500) {} [.reading (some 1000)]).register = some 1000 ∧
    pauses (some 500) (limitRun (some 500) {} ([.reading (some 1000)] ++ [.begin])) [.refused, .reading (some 1200), .reading (some 1500), .reading (some 1600), .refused] =
      [false, false, true, false, true] := by decide +kernel

/-- **C105 (violated by a restart).** A transaction whose token was refused is resumed after a restart: neither is the limit checked any
more, nor is it after a further refusal, as the energy at the start is not known any more.  Charging is never paused. -/
theorem C105_restart_violated (mx : Int) (before : List LimitOp) (ops : List LimitOp) (hg : ∀ op ∈ ops, Goes op) :
    true ∉ pauses (some mx) (limitRun (some mx) {} (before ++ [.restart true])) ops := by
  have e : ∃ t : Option InvalidTx, limitRun (some mx) {} (before ++ [.restart true]) = { register := none, tx := t.map resumed } := by
    refine ⟨(limitRun (some mx) {} before).tx, ?_⟩
    simp [limitRun, limitStep]
  obtain ⟨t, ht⟩ := e
  rw [ht]
  have nostart : ∀ (ops : List LimitOp), (∀ op ∈ ops, Goes op) → ∀ (s : LimitState), (∀ x, s.tx = some x → x.start = none) →
      true ∉ pauses (some mx) s ops := by
    intro ops
    induction ops with
    | nil => intro _ s _; simp [pauses]
    | cons op ops ih =>
      intro hg s hs
      have hc : ∀ s : LimitState, (∀ x, s.tx = some x → x.start = none) →
          (limitCheck (some mx) s).2 = false ∧ ∀ x, (limitCheck (some mx) s).1.tx = some x → x.start = none := by
        intro s hs
        unfold limitCheck
        cases htx : s.tx with
        | none => exact ⟨rfl, by intro x hx; rw [htx] at hx; cases hx⟩
        | some x =>
          have hx := hs x htx
          have : checkMax (some mx) x s.register = (x, false) := by
            unfold checkMax; rw [hx]; cases x.check <;> cases s.register <;> rfl
          simp [this, hx]
      have hstep : (limitStep (some mx) s op).2 = false ∧ ∀ x, (limitStep (some mx) s op).1.tx = some x → x.start = none := by
        cases op with
        | reading r => exact hc _ hs
        | refused =>
          simp only [limitStep, refuse]
          cases htx : s.tx with
          | none => exact ⟨rfl, by intro x hx; rw [htx] at hx; cases hx⟩
          | some x => exact hc _ (by intro y hy; simp at hy; rw [← hy]; exact hs x htx)
        | begin => exact (hg .begin (by simp)).elim
        | finish => exact (hg .finish (by simp)).elim
        | restart b => exact (hg (.restart b) (by simp)).elim
      rw [pauses]
      simp only [List.mem_cons, not_or]
      exact ⟨by simp [hstep.1], ih (fun x hx => hg x (by simp [hx])) _ hstep.2⟩
  refine nostart ops hg _ ?_
  intro x hx
  cases t with
  | none => cases hx
  | some t => simp [resumed] at hx; rw [← hx]

/-- In such a history the limit is exceeded: 10 kWh after a refusal, with a limit of 500 Wh. -/
example : (limitRun (some 500) {} [.reading (some 1000), .begin, .refused, .reading (some 1100), .restart true]).tx = some {} ∧
    pauses (some 500) (limitRun (some 500) {} [.reading (some 1000), .begin, .refused, .reading (some 1100), .restart true])
      [.reading (some 1600), .refused, .reading (some 11000)] = [false, false, false] := by decide +kernel

end Verif.Met
