import Verif.Meter.Model
import Mathlib.Algebra.Order.Ring.Rat

/-!
Averaged meter values (C102) and the clock-aligned values without transaction (C103).
-/

namespace Verif.Met

/-! ### C102 -/

/-- The meter values given since the last `clear`. -/
def since : List AvgOp → List Meter
  | ops => ops.foldl (fun l op => match op with
    | .set m => l ++ [m]
    | .clear => []
    | .retrieve => l) []

/-- The values given for the measurand, phase and location of a sample. -/
def given (l : List Meter) (s : Sample) : List Rat :=
  ((l.flatMap (·.samples)).filter
    (fun x => x.measurand == s.measurand && x.phase == s.phase && x.location == s.location)).map (·.value)

/-- Current.Import, Voltage, Power.Active.Import and Frequency are averaged. -/
def IsAveraged (s : Sample) : Prop := s.measurand ∈ [some 0, some 1, some 2, some 3]

instance (s : Sample) : Decidable (IsAveraged s) := inferInstanceAs (Decidable (_ ∈ _))

/-- The sample with the mean of all values given. -/
def withMean (l : List Meter) (s : Sample) : Sample :=
  if IsAveraged s then { s with value := (given l s).sum / (given l s).length } else s

theorem keyOf_none_iff (s : Sample) : keyOf s = none ↔ ¬ IsAveraged s := by
  unfold keyOf IsAveraged averaged
  cases h : s.measurand with
  | none => simp
  | some x => simp; omega

theorem keyOf_some_iff (s : Sample) (k : Key) : keyOf s = some k ↔
    IsAveraged s ∧ s.measurand = some k.measurand ∧ s.phase = k.phase ∧ s.location = k.location := by
  obtain ⟨km, kp, kl⟩ := k
  unfold keyOf IsAveraged averaged
  cases h : s.measurand with
  | none => simp
  | some x =>
    simp only [Bool.or_eq_true, beq_iff_eq, List.mem_cons, List.not_mem_nil, or_false, Option.some.injEq]
    by_cases hx : ((x = 0 ∨ x = 1) ∨ x = 2) ∨ x = 3
    · simp only [hx, if_true, Option.some.injEq, Key.mk.injEq]
      constructor
      · rintro ⟨a, b, c⟩; exact ⟨by omega, a, b, c⟩
      · rintro ⟨_, a, b, c⟩; exact ⟨a, b, c⟩
    · simp only [hx, if_false]
      constructor
      · intro h; cases h
      · rintro ⟨h, _⟩; omega

/-- The values of a key in a list of samples. -/
def valsOf (k : Key) (l : List Sample) : List Rat := (l.filter (fun s => keyOf s == some k)).map (·.value)

theorem valsOf_given (l : List Meter) (s : Sample) (k : Key) (h : keyOf s = some k) :
    valsOf k (l.flatMap (·.samples)) = given l s := by
  unfold valsOf given
  congr 1
  apply List.filter_congr
  intro x _
  obtain ⟨h1, h2, h3, h4⟩ := (keyOf_some_iff s k).mp h
  rw [Bool.eq_iff_iff]
  simp only [beq_iff_eq, Bool.and_eq_true]
  rw [keyOf_some_iff]
  constructor
  · rintro ⟨_, a, b, c⟩; exact ⟨⟨a.trans h2.symm, b.trans h3.symm⟩, c.trans h4.symm⟩
  · rintro ⟨⟨a, b⟩, c⟩
    refine ⟨?_, a.trans h2, b.trans h3, c.trans h4⟩
    unfold IsAveraged at h1 ⊢; rw [a]; exact h1

/-- The sum stored for a key is that of the values. -/
def SumsOk (sums : List (Key × Rat × Nat)) (l : List Sample) : Prop :=
  ∀ k, sumOf sums k = if valsOf k l = [] then none else some ((valsOf k l).sum, (valsOf k l).length)

theorem sumOf_addSum (l : List (Key × Rat × Nat)) (k : Key) (v : Rat) (k' : Key) :
    sumOf (addSum l k v) k' = if k' = k then
      some (match sumOf l k with | some (s, n) => (s + v, n + 1) | none => (v, 1)) else sumOf l k' := by
  induction l with
  | nil =>
    by_cases h : k' = k
    · subst h; simp [addSum, sumOf]
    · have : (k == k') = false := by simpa using Ne.symm h
      simp [addSum, sumOf, h, this]
  | cons p r ih =>
    obtain ⟨q, s, n⟩ := p
    unfold addSum
    by_cases hq : q = k
    · subst hq
      by_cases h : k' = q
      · subst h; simp [sumOf]
      · have : (q == k') = false := by simpa using Ne.symm h
        simp [sumOf, h, this]
    · simp only [hq, if_false]
      by_cases h : q = k'
      · subst h; simp [sumOf, hq]
      · have h1 : (q == k') = false := by simpa using h
        have h2 : (q == k) = false := by simpa using hq
        have : sumOf ((q, s, n) :: addSum r k v) k' = sumOf (addSum r k v) k' := by simp [sumOf, h1]
        rw [this, ih]
        simp [sumOf, h1, h2]

theorem valsOf_snoc (k : Key) (l : List Sample) (s : Sample) :
    valsOf k (l ++ [s]) = valsOf k l ++ (if keyOf s = some k then [s.value] else []) := by
  unfold valsOf
  rw [List.filter_append, List.map_append]
  by_cases h : keyOf s = some k <;> simp [h]

theorem SumsOk.add {sums : List (Key × Rat × Nat)} {l : List Sample} (h : SumsOk sums l) (s : Sample) :
    SumsOk (addSample sums s) (l ++ [s]) := by
  intro k
  rw [valsOf_snoc]
  unfold addSample
  cases hk : keyOf s with
  | none => simp only [reduceCtorEq, if_false, List.append_nil]; exact h k
  | some q =>
    rw [sumOf_addSum]
    by_cases hq : k = q
    · subst hq
      simp only [if_true]
      rw [h k]
      by_cases he : valsOf k l = []
      · simp [he]
      · simp [he, List.sum_append]
    · have : (some q = some k) = False := by simp [Ne.symm hq]
      simp only [hq, if_false, this, List.append_nil]
      exact h k

theorem SumsOk.addAll {sums : List (Key × Rat × Nat)} (m : List Sample) : ∀ {l : List Sample} {sums : List (Key × Rat × Nat)},
    SumsOk sums l → SumsOk (m.foldl addSample sums) (l ++ m) := by
  induction m with
  | nil => intro l sums h; simpa using h
  | cons s r ih =>
    intro l sums h
    have := ih (h.add s)
    simpa using this

theorem keyOf_average (sums : List (Key × Rat × Nat)) (s : Sample) : keyOf (average sums s) = keyOf s := by
  unfold average
  cases h : keyOf s with
  | none => exact h
  | some k =>
    simp only
    cases sumOf sums k with
    | none => exact h
    | some p => exact h

theorem average_idem (sums : List (Key × Rat × Nat)) (s : Sample) : average sums (average sums s) = average sums s := by
  have hk := keyOf_average sums s
  unfold average at hk ⊢
  cases h : keyOf s with
  | none => simp only [h]
  | some k =>
    simp only [h] at hk ⊢
    cases hs : sumOf sums k with
    | none => simp only [h, hs]
    | some p => simp only [hs] at hk ⊢; rw [hk]; simp only [hs]

theorem average_eq {sums : List (Key × Rat × Nat)} {l : List Meter} (h : SumsOk sums (l.flatMap (·.samples)))
    (s : Sample) (hs : s ∈ l.flatMap (·.samples)) : average sums s = withMean l s := by
  unfold average withMean
  cases hk : keyOf s with
  | none => rw [if_neg ((keyOf_none_iff s).mp hk)]
  | some k =>
    have ha := ((keyOf_some_iff s k).mp hk).1
    rw [if_pos ha]
    have hne : valsOf k (l.flatMap (·.samples)) ≠ [] := by
      unfold valsOf
      simp only [ne_eq, List.map_eq_nil_iff, List.filter_eq_nil_iff]
      intro hall
      exact hall s hs (by simp [hk])
    have hg := valsOf_given l s k hk
    have hk2 := h k
    rw [if_neg hne, hg] at hk2
    simp only [hk2]

/-- The state after a history. -/
structure AvgOk (l : List Meter) (a : Avg) : Prop where
  sums : SumsOk a.sums (l.flatMap (·.samples))
  last : a.last.samples.map (average a.sums) = ((l.getLast?.map (·.samples)).getD []).map (average a.sums)
  time : ∀ m, l.getLast? = some m → a.last.time = m.time

theorem since_snoc (ops : List AvgOp) (op : AvgOp) : since (ops ++ [op]) =
    match op with | .set m => since ops ++ [m] | .clear => [] | .retrieve => since ops := by
  unfold since; rw [List.foldl_append]; rfl

theorem AvgOk.run (ops : List AvgOp) : AvgOk (since ops) (avgRun ops) := by
  generalize hn : ops.length = n
  induction n generalizing ops with
  | zero =>
    obtain rfl := List.length_eq_zero_iff.mp hn
    exact ⟨fun k => rfl, rfl, by simp [since]⟩
  | succ n ih0 =>
    rcases List.eq_nil_or_concat ops with rfl | ⟨r, op, h⟩
    · simp at hn
    rw [List.concat_eq_append] at h; subst h
    have ih := ih0 r (by simpa using hn)
    have hr : avgRun (r ++ [op]) = avgStep (avgRun r) op := by simp [avgRun]
    rw [hr, since_snoc]
    cases op with
    | set m =>
      refine ⟨?_, by simp [avgStep, Avg.set], by simp [avgStep, Avg.set]⟩
      have := SumsOk.addAll (sums := (avgRun r).sums) m.samples ih.sums
      simpa [avgStep, Avg.set] using this
    | clear => exact ⟨fun k => rfl, by simp [avgStep, Avg.clear], by simp⟩
    | retrieve =>
      refine ⟨ih.sums, ?_, ih.time⟩
      simp only [avgStep, Avg.retrieve, List.map_map]
      have : (average (avgRun r).sums ∘ average (avgRun r).sums) = average (avgRun r).sums := by
        funext s; exact average_idem _ s
      rw [this]; exact ih.last

/-- C102: the averaged meter value is the last one given since the last `clear`, in which the value of every averaged measurand is the mean of all
values given for its measurand, phase and location since then; after every history. -/
theorem C102_partial (ops : List AvgOp) :
    (avgRun (ops ++ [.retrieve])).last.samples = match (since ops).getLast? with
      | none => []
      | some m => m.samples.map (withMean (since ops)) := by
  have h := AvgOk.run ops
  have hr : avgRun (ops ++ [.retrieve]) = (avgRun ops).retrieve := by simp [avgRun, avgStep]
  rw [hr]
  show (avgRun ops).last.samples.map _ = _
  rw [h.last]
  cases hl : (since ops).getLast? with
  | none => rfl
  | some m =>
    simp only [Option.map_some, Option.getD_some]
    apply List.map_congr_left
    intro s hs
    exact average_eq h.sums s (List.mem_flatMap.mpr ⟨m, List.mem_of_getLast? hl, hs⟩)

/-- Non-vacuity of `C102_partial`: three voltages after a `clear`, read twice; the register is not averaged. -/
example : (avgRun [.set ⟨0, [{ value := 999, measurand := some 1 }]⟩, .clear, .set ⟨1, [{ value := 220, measurand := some 1 }]⟩, .retrieve,
    .set ⟨2, [{ value := 230, measurand := some 1 }]⟩,
    .set ⟨3, [{ value := 234, measurand := some 1 }, { value := 7, measurand := some 4 }]⟩, .retrieve, .retrieve]).last =
    ⟨3, [{ value := 228, measurand := some 1 }, { value := 7, measurand := some 4 }]⟩ := by decide +kernel

/-- C102 violated: the unit and its multiplier are ignored: 1 kW and 3000 W have the mean 1500.5 W. -/
theorem C102_violated : ∃ kW w : UnitOf, kW.mult = some 3 ∧ w.mult = none ∧ kW.unit = w.unit ∧
    (avgRun [.set ⟨0, [{ value := 1, measurand := some 2, unit := some kW }]⟩, .set ⟨1, [{ value := 3000, measurand := some 2, unit := some w }]⟩,
      .retrieve]).last.samples = [{ value := 3001 / 2, measurand := some 2, unit := some w }] :=
  ⟨{ mult := some 3 }, {}, rfl, rfl, rfl, by decide +kernel⟩

/-! ### C103 -/

/-- The value sent: the samples with a configured measurand, with the context Sample.Clock. -/
def Reported (ms : List Nat) (a : Avg) (m : Meter) : Prop :=
  m = ⟨a.last.time, ((a.retrieve.last.samples.filter (fun s => ms.any (fun x => s.measurand == some x))).map
    (fun s => { s with context := some .clock }))⟩

theorem latest_eq (m : Meter) (ms : List Nat) : latest m ms =
    ⟨m.time, (m.samples.filter (fun s => ms.any (fun x => s.measurand == some x))).map (fun s => { s with context := some .clock })⟩ := by
  unfold latest setContext apply
  simp only [Meter.mk.injEq, true_and]
  congr 1
  induction m.samples with
  | nil => rfl
  | cons s r ih =>
    rw [List.filterMap_cons, List.filter_cons]
    have ha : applyOne ms true s = match s.measurand with
      | none => none
      | some x => if ms.contains x then some (strip true s) else none := rfl
    rw [ha]
    cases hm : s.measurand with
    | none => simpa using ih
    | some x =>
      by_cases hx : x ∈ ms
      · have h1 : ms.any (fun y => some x == some y) = true := List.any_eq_true.mpr ⟨x, hx, by simp⟩
        have h2 : ms.contains x = true := by simpa using hx
        simp only [h2, if_true, h1, strip]
        rw [← ih]
      · have h1 : ms.any (fun y => some x == some y) = false := by
          rw [List.any_eq_false]; intro y hy; simp; intro h; subst h; exact hx hy
        have h2 : ms.contains x = false := by simpa using hx
        simp only [h2, h1, Bool.false_eq_true, if_false]
        exact ih

theorem mem_request (id i : Nat) (m x : Meter) : (id, x) ∈ request i m ↔ id = i ∧ x = m ∧ m.samples ≠ [] := by
  unfold request
  by_cases h : m.samples = [] <;> simp [h]

/-- C103: at a clock-aligned instant a MeterValues.req is sent for the station and for exactly the EVSEs without a transaction that have values of
the configured measurands; it has exactly these, with the context Sample.Clock.  With AlignedDataSendDuringIdle nothing is sent while there is a
transaction anywhere. -/
theorem C103 (s : Station) (id : Nat) (m : Meter) : (id, m) ∈ alignedRequests s ↔
    ¬ (s.duringIdle = true ∧ ∃ e ∈ s.evses, e.tx = true) ∧ m.samples ≠ [] ∧
    ((id = 0 ∧ Reported s.measurands s.zero m) ∨
     ∃ i e, id = i + 1 ∧ s.evses[i]? = some e ∧ e.tx = false ∧ Reported s.measurands e.avg m) := by
  unfold alignedRequests
  by_cases hd : (s.duringIdle && s.evses.any (·.tx)) = true
  · rw [if_pos hd]
    simp only [Bool.and_eq_true, List.any_eq_true] at hd
    simp only [List.not_mem_nil, false_iff]
    rintro ⟨h, _⟩; exact h hd
  · rw [if_neg hd]
    have hd' : ¬ (s.duringIdle = true ∧ ∃ e ∈ s.evses, e.tx = true) := by
      simpa only [Bool.and_eq_true, List.any_eq_true] using hd
    simp only [List.mem_append, mem_request, latest_eq, List.mem_flatMap]
    constructor
    · rintro (⟨h1, h2, h3⟩ | ⟨⟨e, i⟩, hi, h⟩)
      · exact ⟨hd', h2 ▸ h3, .inl ⟨h1, h2⟩⟩
      · have hi' := List.mem_zipIdx_iff_getElem?.mp hi
        unfold evseRequest at h
        cases ht : e.tx with
        | true => simp [ht] at h
        | false =>
          simp only [ht, Bool.false_eq_true, if_false, mem_request, latest_eq] at h
          exact ⟨hd', h.2.1 ▸ h.2.2, .inr ⟨i, e, h.1, hi', ht, h.2.1⟩⟩
    · rintro ⟨_, hne, ⟨h1, h2⟩ | ⟨i, e, h1, h2, h3, h4⟩⟩
      · have h2' := h2; unfold Reported at h2'; subst h2'; exact .inl ⟨h1, rfl, hne⟩
      · refine .inr ⟨(e, i), List.mem_zipIdx_iff_getElem?.mpr h2, ?_⟩
        simp only [evseRequest, h3, Bool.false_eq_true, if_false, mem_request, latest_eq]
        have h4' := h4; unfold Reported at h4'; subst h4'; exact ⟨h1, rfl, hne⟩

theorem request_cleared (i : Nat) (a : Avg) (ms : List Nat) : request i (latest a.clear.retrieve.last ms) = [] := by
  simp [request, latest, setContext, apply, Avg.retrieve, Avg.clear]

/-- C103: what was sent is not sent again: without new values the next instant sends nothing. -/
theorem C103_once (s : Station) : alignedRequests (alignedAfter s) = [] := by
  unfold alignedAfter
  by_cases hd : (s.duringIdle && s.evses.any (·.tx)) = true
  · rw [if_pos hd]; unfold alignedRequests; rw [if_pos hd]
  · rw [if_neg hd]
    unfold alignedRequests
    split
    · rfl
    · rw [request_cleared, List.nil_append, List.flatMap_eq_nil_iff]
      rintro ⟨e, i⟩ hi
      have hi' := List.mem_zipIdx_iff_getElem?.mp hi
      rw [List.getElem?_map, Option.map_eq_some_iff] at hi'
      obtain ⟨e0, _, h⟩ := hi'
      unfold evseRequest
      simp only at h
      subst h
      unfold evseAfter
      cases ht : e0.tx with
      | true => simp [ht]
      | false => simp only [Bool.false_eq_true, if_false]; exact request_cleared _ _ _

/-- C103: an instant does not touch the values of an EVSE with a transaction (they belong to its TransactionEvent.req), and with AlignedDataSendDuringIdle
and a transaction anywhere it touches none. -/
theorem C103_kept (s : Station) (i : Nat) (e : Evse) (he : s.evses[i]? = some e)
    (h : e.tx = true ∨ (s.duringIdle = true ∧ ∃ e ∈ s.evses, e.tx = true)) : (alignedAfter s).evses[i]? = some e := by
  unfold alignedAfter
  split
  · exact he
  · rename_i hd
    have hd' : ¬ (s.duringIdle = true ∧ ∃ e ∈ s.evses, e.tx = true) := by
      simpa only [Bool.and_eq_true, List.any_eq_true] using hd
    have ht : e.tx = true := h.resolve_right hd'
    simp [he, evseAfter, ht]

/-- Non-vacuity of `C103` and `C103_once`: the station and the second EVSE, not the first one with a transaction. -/
example :
    let m : Meter := ⟨5, [{ value := 7, measurand := some 4 }, { value := 9, measurand := some 6 }]⟩
    let st : Station := { zero := Avg.set {} m, evses := [⟨true, Avg.set {} m⟩, ⟨false, Avg.set {} m⟩], measurands := [4] }
    alignedRequests st = [(0, ⟨5, [{ value := 7, measurand := some 4, context := some .clock }]⟩),
      (2, ⟨5, [{ value := 7, measurand := some 4, context := some .clock }]⟩)] ∧
    alignedRequests { st with duringIdle := true } = [] := by decide +kernel

end Verif.Met
