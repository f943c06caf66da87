import Verif.Price.Spec

/-!
# Theorems about the triggers of a cost message
-/

namespace Verif.Price

theorem quiet_tail {e : Ev} {es : List Ev} (h : Quiet (e :: es)) : Quiet es := fun x hx => h x (by simp [hx])

theorem run_cons (f : Machine) (c : Con) (e : Ev) (es : List Ev) : run f c (e :: es) = run f (f c e).1 es := rfl

theorem run_append (f : Machine) (c : Con) (a b : List Ev) : run f c (a ++ b) = run f (run f c a) b := by simp [run]

theorem trace_append (f : Machine) (c : Con) (a b : List Ev) :
    trace f c (a ++ b) = trace f c a ++ trace f (run f c a) b := by
  induction a generalizing c with
  | nil => rfl
  | cons e a ih => simp [trace, run_cons, ih]

theorem energyOnly_eq (r : Option Reading) :
    energyOnly r = (r.bind Reading.energy).toList.map (fun e => (⟨some e, none⟩ : Reading)) := by
  rcases r with _ | ⟨_ | e, p⟩ <;> rfl

theorem fire_fields (c : Con) (now : Int) :
    (fire c now).1 = { c with timer := (fire c now).1.timer } := by
  unfold fire
  cases c.timer with
  | none => rfl
  | some t => simp only; split <;> rfl

/-- Both versions do the same with an event that is no measurement, as far as the energy and the power are concerned. -/
structure Base (f : Machine) : Prop where
  clock : ∀ c now, f c (.clock now) = fire c now
  status : ∀ c s, (f c (.status s)).1 = { c with previous := (f c (.status s)).1.previous }

theorem base16 (offset : Int) : Base (V16.step offset) where
  clock _ _ := rfl
  status c s := by
    simp only [V16.step, V16.onStatus]
    split <;> rfl

theorem base2 : Base V2.step where
  clock _ _ := rfl
  status _ _ := rfl

/-! ## C165: energy -/

theorem quiet16_none (offset : Int) (mid : List Ev) (hq : Quiet mid) (c : Con) (he : c.energy = none)
    (hp : c.power = none) : atReadings (trace (V16.step offset) c mid) = [] := by
  induction mid generalizing c with
  | nil => rfl
  | cons e mid ih =>
    have hq' := quiet_tail hq
    cases e with
    | cost now t => exact absurd rfl ((hq _ (by simp)).1 now t)
    | stop => exact absurd rfl ((hq _ (by simp)).2)
    | measured r =>
      simp only [trace, atReadings, V16.step, V16.onReading, V16.powerPart, he, hp, List.nil_append]
      exact ih hq' _ (by first | rfl | exact he) (by first | rfl | exact hp)
    | status s =>
      simp only [trace, atReadings]
      refine ih hq' _ ?_ ?_ <;> rw [(base16 offset).status] <;> assumption
    | clock now =>
      simp only [trace, atReadings, V16.step]
      refine ih hq' _ ?_ ?_ <;> rw [fire_fields] <;> assumption

theorem quiet16_energy (offset : Int) (threshold : Int) (mid : List Ev) (hq : Quiet mid) (c : Con)
    (he : c.energy = some threshold) (hp : c.power = none) :
    atReadings (trace (V16.step offset) c mid) =
      ((readings mid).find? (reached threshold)).toList.map (fun r => ⟨r.energy, none⟩) := by
  induction mid generalizing c with
  | nil => rfl
  | cons e mid ih =>
    have hq' := quiet_tail hq
    cases e with
    | cost now t => exact absurd rfl ((hq _ (by simp)).1 now t)
    | stop => exact absurd rfl ((hq _ (by simp)).2)
    | measured r =>
      simp only [trace, atReadings, V16.step, V16.onReading, he, readings, List.find?_cons]
      rcases hr : r.energy with _ | x
      · simp only [reached, hr, V16.powerPart, hp, List.nil_append]
        exact ih hq' _ (by first | rfl | exact he) (by first | rfl | exact hp)
      · by_cases hx : threshold ≤ x
        · simp only [reached, hr, hx, if_true, decide_true, Option.toList_some, List.map_cons, List.map_nil]
          exact congrArg ([_] ++ ·) (quiet16_none offset mid hq' _ rfl (by first | rfl | exact hp))
        · simp only [reached, hr, hx, if_false, decide_false, V16.powerPart, hp, List.nil_append]
          exact ih hq' _ (by first | rfl | exact he) (by first | rfl | exact hp)
    | status s =>
      simp only [trace, atReadings]
      refine ih hq' _ ?_ ?_ <;> rw [(base16 offset).status] <;> assumption
    | clock now =>
      simp only [trace, atReadings, V16.step]
      refine ih hq' _ ?_ ?_ <;> rw [fire_fields] <;> assumption

theorem quiet2_none (mid : List Ev) (hq : Quiet mid) (c : Con) (he : c.energy = none) (hp : c.power = none) :
    atReadings (trace V2.step c mid) = [] := by
  induction mid generalizing c with
  | nil => rfl
  | cons e mid ih =>
    have hq' := quiet_tail hq
    cases e with
    | cost now t => exact absurd rfl ((hq _ (by simp)).1 now t)
    | stop => exact absurd rfl ((hq _ (by simp)).2)
    | measured r =>
      simp only [trace, atReadings, V2.step, V2.onReading, V2.energyPart, V2.powerPart, he, hp, List.nil_append]
      exact ih hq' _ (by first | rfl | exact he) (by first | rfl | exact hp)
    | status s =>
      simp only [trace, atReadings, V2.step]
      exact ih hq' _ (by first | rfl | exact he) (by first | rfl | exact hp)
    | clock now =>
      simp only [trace, atReadings, V2.step]
      refine ih hq' _ ?_ ?_ <;> rw [fire_fields] <;> assumption

theorem quiet2_energy (threshold : Int) (mid : List Ev) (hq : Quiet mid) (c : Con)
    (he : c.energy = some threshold) (hp : c.power = none) :
    atReadings (trace V2.step c mid) = ((readings mid).find? (reached threshold)).toList := by
  induction mid generalizing c with
  | nil => rfl
  | cons e mid ih =>
    have hq' := quiet_tail hq
    cases e with
    | cost now t => exact absurd rfl ((hq _ (by simp)).1 now t)
    | stop => exact absurd rfl ((hq _ (by simp)).2)
    | measured r =>
      simp only [trace, atReadings, V2.step, V2.onReading, V2.energyPart, he, readings, List.find?_cons]
      rcases hr : r.energy with _ | x
      · simp only [reached, hr, V2.powerPart, hp, List.nil_append]
        exact ih hq' _ (by first | rfl | exact he) (by first | rfl | exact hp)
      · by_cases hx : threshold ≤ x
        · simp only [reached, hr, hx, if_true, decide_true, Option.toList_some, V2.powerPart, hp, List.append_nil]
          exact congrArg ([_] ++ ·) (quiet2_none mid hq' _ rfl (by first | rfl | exact hp))
        · simp only [reached, hr, hx, if_false, decide_false, V2.powerPart, hp, List.nil_append]
          exact ih hq' _ (by first | rfl | exact he) (by first | rfl | exact hp)
    | status s =>
      simp only [trace, atReadings, V2.step]
      exact ih hq' _ (by first | rfl | exact he) (by first | rfl | exact hp)
    | clock now =>
      simp only [trace, atReadings, V2.step]
      refine ih hq' _ ?_ ?_ <;> rw [fire_fields] <;> assumption

theorem set16 (offset now : Int) (c : Con) (t : Triggers) :
    (V16.setTriggers offset now c t).energy = t.energy ∧ (V16.setTriggers offset now c t).power = t.power ∧
      (V16.setTriggers offset now c t).status = t.status ∧ (V16.setTriggers offset now c t).last = c.last ∧
      (V16.setTriggers offset now c t).reading = c.reading ∧
      (V16.setTriggers offset now c t).previous = c.previous := by
  unfold V16.setTriggers V16.setTimer
  cases t.time with
  | none => exact ⟨rfl, rfl, rfl, rfl, rfl, rfl⟩
  | some x => simp only; split <;> exact ⟨rfl, rfl, rfl, rfl, rfl, rfl⟩

/-- One of the triggers that OCPP 2.x has is given. -/
def Some2 (t : Triggers) : Prop := t.energy ≠ none ∨ t.power ≠ none ∨ t.time ≠ none

theorem set2 (now : Int) (c : Con) (t : Triggers) (h : Some2 t) :
    (V2.setTriggers now c t).energy = t.energy ∧ (V2.setTriggers now c t).power = t.power ∧
      (V2.setTriggers now c t).last = c.last ∧ (V2.setTriggers now c t).reading = c.reading := by
  unfold V2.setTriggers V2.setTimer
  rw [if_neg (by
    simp only [Bool.and_eq_true, Option.isNone_iff_eq_none, not_and]
    intro ⟨h1, h2⟩ h3
    rcases h with h | h | h <;> contradiction)]
  cases t.time with
  | none => exact ⟨rfl, rfl, rfl, rfl⟩
  | some x => simp only; split <;> exact ⟨rfl, rfl, rfl, rfl⟩

/-- C165 (OCPP 1.6): with an energy trigger (and no power trigger) the measurements cause exactly one meter value, with the
first register value that reaches the energy. -/
theorem C165_once_v16 (offset now : Int) (c : Con) (t : Triggers) (threshold : Int) (he : t.energy = some threshold)
    (hp : t.power = none) (mid : List Ev) (hq : Quiet mid) :
    atReadings (trace (V16.step offset) c (.cost now t :: mid)) =
      ((readings mid).find? (reached threshold)).toList.map (fun r => ⟨r.energy, none⟩) := by
  obtain ⟨h1, h2, _⟩ := set16 offset now c t
  simp only [trace, atReadings, V16.step]
  exact quiet16_energy offset threshold mid hq _ (h1.trans he) (h2.trans hp)

/-- C165 (OCPP 2.x): the same. -/
theorem C165_once_v2 (now : Int) (c : Con) (t : Triggers) (threshold : Int) (he : t.energy = some threshold)
    (hp : t.power = none) (mid : List Ev) (hq : Quiet mid) :
    atReadings (trace V2.step c (.cost now t :: mid)) = ((readings mid).find? (reached threshold)).toList := by
  obtain ⟨h1, h2, _⟩ := set2 now c t (.inl (by simp [he]))
  simp only [trace, atReadings, V2.step]
  exact quiet2_energy threshold mid hq _ (h1.trans he) (h2.trans hp)

/-- C165 (OCPP 1.6): without triggers for energy and power no measurement causes a meter value. -/
theorem C165_none_v16 (offset now : Int) (c : Con) (t : Triggers) (he : t.energy = none) (hp : t.power = none)
    (mid : List Ev) (hq : Quiet mid) : atReadings (trace (V16.step offset) c (.cost now t :: mid)) = [] := by
  obtain ⟨h1, h2, _⟩ := set16 offset now c t
  simp only [trace, atReadings, V16.step]
  exact quiet16_none offset mid hq _ (h1.trans he) (h2.trans hp)

theorem keeps_energy16 (offset threshold : Int) (mid : List Ev) (hq : Quiet mid) (c : Con)
    (he : c.energy = some threshold) (hr : ∀ r ∈ readings mid, reached threshold r = false) :
    (run (V16.step offset) c mid).energy = some threshold := by
  induction mid generalizing c with
  | nil => exact he
  | cons e mid ih =>
    have hq' := quiet_tail hq
    rw [run_cons]
    cases e with
    | cost now t => exact absurd rfl ((hq _ (by simp)).1 now t)
    | stop => exact absurd rfl ((hq _ (by simp)).2)
    | measured r =>
      refine ih hq' _ ?_ (fun x hx => hr x (by simp [readings, hx]))
      have h := hr r (by simp [readings])
      have hpow : ∀ d : Con, (V16.powerPart d r).1.energy = d.energy := by
        intro d; unfold V16.powerPart
        split
        · split
          · split <;> rfl
          · rfl
        · rfl
      simp only [V16.step, V16.onReading, he]
      rcases hx : r.energy with _ | x
      · simp only [hpow]; try exact he
      · simp only [reached, hx, decide_eq_false_iff_not] at h
        simp only [h, if_false, hpow]; try exact he
    | status s => exact ih hq' _ (by rw [(base16 offset).status]; exact he) hr
    | clock now => exact ih hq' _ (by simp only [V16.step]; rw [fire_fields]; exact he) hr

theorem keeps_energy2 (threshold : Int) (mid : List Ev) (hq : Quiet mid) (c : Con)
    (he : c.energy = some threshold) (hr : ∀ r ∈ readings mid, reached threshold r = false) :
    (run V2.step c mid).energy = some threshold := by
  induction mid generalizing c with
  | nil => exact he
  | cons e mid ih =>
    have hq' := quiet_tail hq
    rw [run_cons]
    cases e with
    | cost now t => exact absurd rfl ((hq _ (by simp)).1 now t)
    | stop => exact absurd rfl ((hq _ (by simp)).2)
    | measured r =>
      refine ih hq' _ ?_ (fun x hx => hr x (by simp [readings, hx]))
      have h := hr r (by simp [readings])
      have hpow : ∀ (b : Bool) (d : Con), (V2.powerPart b d r).1.energy = d.energy := by
        intro b d; unfold V2.powerPart
        split
        · split
          · split <;> rfl
          · rfl
        · rfl
      simp only [V2.step, V2.onReading, hpow, V2.energyPart, he]
      rcases hx : r.energy with _ | x
      · first | exact he | rfl
      · simp only [reached, hx, decide_eq_false_iff_not] at h
        simp only [h, if_false]; try exact he
    | status s => exact ih hq' _ he hr
    | clock now => exact ih hq' _ (by simp only [V2.step]; rw [fire_fields]; exact he) hr

/-- C165 (OCPP 1.6): whatever other triggers there are, the first measurement that reaches the energy causes a meter value
with it. -/
theorem C165_reached_v16 (offset now : Int) (c : Con) (t : Triggers) (threshold : Int) (he : t.energy = some threshold)
    (mid : List Ev) (hq : Quiet mid) (hr : ∀ r ∈ readings mid, reached threshold r = false) (r : Reading)
    (h : reached threshold r = true) :
    (V16.step offset (run (V16.step offset) c (.cost now t :: mid)) (.measured r)).2 = [⟨r.energy, none⟩] := by
  have h1 : (V16.step offset c (.cost now t)).1.energy = some threshold := (set16 offset now c t).1.trans he
  have h2 := keeps_energy16 offset threshold mid hq _ h1 hr
  rw [run_cons]
  simp only [V16.step, V16.onReading] at h2 ⊢
  simp only [h2]
  rcases hx : r.energy with _ | x
  · simp [reached, hx] at h
  · simp only [reached, hx, decide_eq_true_eq] at h
    simp [h]

/-- C165 (OCPP 2.x): the same; the meter value has the power as well. -/
theorem C165_reached_v2 (now : Int) (c : Con) (t : Triggers) (threshold : Int) (he : t.energy = some threshold)
    (mid : List Ev) (hq : Quiet mid) (hr : ∀ r ∈ readings mid, reached threshold r = false) (r : Reading)
    (h : reached threshold r = true) :
    (V2.step (run V2.step c (.cost now t :: mid)) (.measured r)).2 = [r] := by
  have h1 : (V2.step c (.cost now t)).1.energy = some threshold := (set2 now c t (.inl (by simp [he]))).1.trans he
  have h2 := keeps_energy2 threshold mid hq _ h1 hr
  rw [run_cons]
  simp only [V2.step, V2.onReading, V2.energyPart] at h2 ⊢
  simp only [h2]
  rcases hx : r.energy with _ | x
  · simp [reached, hx] at h
  · simp only [reached, hx, decide_eq_true_eq] at h
    simp only [h, if_true, List.isEmpty_cons, Bool.not_false]
    unfold V2.powerPart
    split
    · split
      · split <;> rfl
      · rfl
    · rfl

/-- The hypotheses of the theorems for the energy hold: the trigger is at 10 kWh, the register shows 9 and then 11 kWh. -/
example : Quiet [.measured ⟨some 9000, some 7000⟩, .status 3, .clock 5, .measured ⟨some 11000, some 7000⟩] ∧
    atReadings (trace (V16.step 0) {} (.cost 0 { energy := some 10000 } ::
      [.measured ⟨some 9000, some 7000⟩, .status 3, .clock 5, .measured ⟨some 11000, some 7000⟩,
        .measured ⟨some 12000, some 7000⟩])) = [⟨some 11000, none⟩] ∧
    (∀ r ∈ readings [.measured ⟨some 9000, some 7000⟩], reached 10000 r = false) ∧
    reached 10000 ⟨some 11000, some 7000⟩ = true := by
  refine ⟨?_, by decide, by decide, by decide⟩
  intro e he
  simp only [List.mem_cons, List.not_mem_nil, or_false] at he
  rcases he with rfl | rfl | rfl | rfl <;> simp

/-- C165 fails for OCPP 2.x: a cost message without triggers leaves those of an earlier message in place, here an energy
that is reached later. -/
theorem C165_none_v2_violated : ∃ (pre mid : List Ev) (now : Int), Quiet mid ∧
    atReadings (trace V2.step (run V2.step {} pre) (.cost now {} :: mid)) ≠ [] := by
  refine ⟨[.cost 0 { energy := some 10000 }], [.measured ⟨some 11000, none⟩], 5, ?_, by decide⟩
  intro e he; simp only [List.mem_singleton] at he; subst he; simp

/-! ## C166: power -/

/-- A machine in which measurements without energy trigger are judged by the power only. -/
structure PowerOnly (f : Machine) : Prop where
  base : Base f
  measured : ∀ c r, c.energy = none → f c (.measured r) = V16.powerPart { c with reading := some r } r

theorem power16 (offset : Int) : PowerOnly (V16.step offset) where
  base := base16 offset
  measured c r h := by simp only [V16.step, V16.onReading, h]

theorem power2 : PowerOnly V2.step where
  base := base2
  measured c r h := by
    simp only [V2.step, V2.onReading, V2.energyPart, h, V2.powerPart, V16.powerPart, List.isEmpty_nil, Bool.not_true,
      List.nil_append, Bool.false_eq_true, if_false]

theorem powerPart_fields (c : Con) (r : Reading) :
    (V16.powerPart c r).1 = { c with last := (V16.powerPart c r).1.last } := by
  unfold V16.powerPart
  split
  · split
    · split <;> rfl
    · rfl
  · rfl

/-- What a measurement does to the last power, and what is sent. -/
theorem powerPart_cases (c : Con) (r : Reading) (threshold : Int) (hp : c.power = some threshold) :
    ((V16.powerPart c r).2 = [] ∧ (V16.powerPart c r).1 = c) ∨
      ∃ p, r.power = some p ∧ (V16.powerPart c r).2 = [r] ∧ (V16.powerPart c r).1 = { c with last := some p } ∧
        ∀ l, c.last = some l → (l < threshold ∧ 21 * threshold ≤ 20 * p) ∨ (threshold < l ∧ 20 * p ≤ 19 * threshold) := by
  unfold V16.powerPart
  rw [hp]
  rcases hr : r.power with _ | p
  · exact .inl ⟨rfl, rfl⟩
  · rcases hl : c.last with _ | l
    · exact .inr ⟨p, rfl, rfl, rfl, by simp⟩
    · simp only
      split
      · rename_i hc
        refine .inr ⟨p, rfl, rfl, rfl, ?_⟩
        intro l' h'
        simp only [Option.some.injEq] at h'
        subst h'
        simpa [crossed] using hc
      · exact .inl ⟨rfl, rfl⟩

theorem quiet_power (f : Machine) (hf : PowerOnly f) (threshold : Int) (mid : List Ev) (hq : Quiet mid) (c : Con)
    (he : c.energy = none) (hp : c.power = some threshold) :
    Alternate threshold (c.last.toList ++ (atReadings (trace f c mid)).filterMap Reading.power) := by
  induction mid generalizing c with
  | nil => cases h : c.last <;> simp [trace, atReadings, Alternate]
  | cons e mid ih =>
    have hq' := quiet_tail hq
    cases e with
    | cost now t => exact absurd rfl ((hq _ (by simp)).1 now t)
    | stop => exact absurd rfl ((hq _ (by simp)).2)
    | measured r =>
      simp only [trace, atReadings, hf.measured c r he]
      rcases powerPart_cases { c with reading := some r } r threshold hp with ⟨h1, h2⟩ | ⟨p, h1, h2, h3, h4⟩
      · rw [h1, h2, List.nil_append]
        exact ih hq' { c with reading := some r } he hp
      · rw [h2, h3]
        have := ih hq'
          { c with
            reading := some r
            last := some p } he hp
        simp only [List.cons_append, List.nil_append, List.filterMap_cons, h1, Option.toList_some] at this ⊢
        cases hl : c.last with
        | none => simpa using this
        | some l => exact ⟨h4 l hl, this⟩
    | status s =>
      simp only [trace, atReadings]
      have := ih hq' (f c (.status s)).1 (by rw [hf.base.status]; exact he) (by rw [hf.base.status]; exact hp)
      rw [hf.base.status] at this ⊢
      exact this
    | clock now =>
      simp only [trace, atReadings, hf.base.clock]
      have := ih hq' (fire c now).1 (by rw [fire_fields]; exact he) (by rw [fire_fields]; exact hp)
      rw [fire_fields] at this ⊢
      exact this

theorem alternate_suffix {threshold : Int} {a : List Int} {b : List Int} (h : Alternate threshold (a ++ b)) :
    Alternate threshold b := by
  induction a with
  | nil => exact h
  | cons x a ih =>
    apply ih
    cases hab : a ++ b with
    | nil => trivial
    | cons y l =>
      rw [List.cons_append, hab] at h
      exact h.2

/-- C166 (OCPP 1.6): the meter values that a power trigger causes tell powers on alternating sides of the threshold, each at
least 5 % away from it: no flood while the power stays near the threshold. -/
theorem C166_alternate_v16 (offset now : Int) (c : Con) (t : Triggers) (threshold : Int) (he : t.energy = none)
    (hp : t.power = some threshold) (mid : List Ev) (hq : Quiet mid) :
    Alternate threshold ((atReadings (trace (V16.step offset) c (.cost now t :: mid))).filterMap Reading.power) := by
  obtain ⟨h1, h2, _⟩ := set16 offset now c t
  simp only [trace, atReadings]
  exact alternate_suffix (quiet_power _ (power16 offset) threshold mid hq _ (h1.trans he) (h2.trans hp))

/-- C166 (OCPP 2.x): the same. -/
theorem C166_alternate_v2 (now : Int) (c : Con) (t : Triggers) (threshold : Int) (he : t.energy = none)
    (hp : t.power = some threshold) (mid : List Ev) (hq : Quiet mid) :
    Alternate threshold ((atReadings (trace V2.step c (.cost now t :: mid))).filterMap Reading.power) := by
  obtain ⟨h1, h2, _⟩ := set2 now c t (.inr (.inl (by simp [hp])))
  simp only [trace, atReadings]
  exact alternate_suffix (quiet_power _ power2 threshold mid hq _ (h1.trans he) (h2.trans hp))

/-- The power threshold that holds after a history: the one of the last cost message of the transaction. -/
def thresholdOf (before : Option Int) : List Ev → Option Int
  | [] => before
  | .cost _ t :: es => thresholdOf t.power es
  | .stop :: es => thresholdOf none es
  | _ :: es => thresholdOf before es

/-- No cost message has an energy trigger. -/
def NoEnergy (es : List Ev) : Prop := ∀ now t, .cost now t ∈ es → t.energy = none

/-- Cost messages set the triggers for energy and power and touch nothing else that matters here. -/
structure Sets (f : Machine) (ok : Triggers → Prop) : Prop where
  power : PowerOnly f
  cost : ∀ c now t, ok t → (f c (.cost now t)).1.energy = t.energy ∧ (f c (.cost now t)).1.power = t.power ∧
    (f c (.cost now t)).1.last = c.last
  silent : ∀ c now t, (f c (.cost now t)).2 = []
  stop : ∀ c, f c .stop = (reset c, [])
  statusOut : ∀ c s, ((f c (.status s)).2).filterMap Reading.power = []

theorem energyOnly_power (r : Option Reading) : (energyOnly r).filterMap Reading.power = [] := by
  rcases r with _ | ⟨_ | e, p⟩ <;> rfl

theorem fire_power (c : Con) (now : Int) : (fire c now).2.filterMap Reading.power = [] := by
  unfold fire
  cases c.timer with
  | none => rfl
  | some t => simp only; split <;> simp [energyOnly_power]

theorem sets16 (offset : Int) : Sets (V16.step offset) (fun _ => True) where
  power := power16 offset
  cost c now t _ := by obtain ⟨h1, h2, _, h4, _⟩ := set16 offset now c t; exact ⟨h1, h2, h4⟩
  silent _ _ _ := rfl
  stop _ := rfl
  statusOut c s := by
    simp only [V16.step, V16.onStatus]
    cases c.status with
    | none => rfl
    | some l => simp only; split <;> simp [energyOnly_power]

theorem sets2 : Sets V2.step Some2 where
  power := power2
  cost c now t h := by obtain ⟨h1, h2, h3, _⟩ := set2 now c t h; exact ⟨h1, h2, h3⟩
  silent _ _ _ := rfl
  stop _ := rfl
  statusOut _ _ := rfl

/-- Bookkeeping over a history: the stored last power is the one the CSMS was told, and it was measured. -/
theorem told_run (f : Machine) (ok : Triggers → Prop) (hf : Sets f ok) (es : List Ev) (he : NoEnergy es)
    (hok : ∀ now t, .cost now t ∈ es → ok t) (c : Con) (hc : c.energy = none) :
    (run f c es).energy = none ∧ (run f c es).power = thresholdOf c.power es ∧
      (run f c es).last = told c.last (trace f c es) ∧
      ∀ l, (run f c es).last = some l → c.last = some l ∨ l ∈ powers es := by
  induction es generalizing c with
  | nil => exact ⟨hc, rfl, rfl, fun l h => .inl h⟩
  | cons e es ih =>
    have he' : NoEnergy es := fun now t h => he now t (by simp [h])
    have hok' : ∀ now t, .cost now t ∈ es → ok t := fun now t h => hok now t (by simp [h])
    rw [run_cons]
    cases e with
    | cost now t =>
      obtain ⟨h1, h2, h3⟩ := hf.cost c now t (hok now t (by simp))
      obtain ⟨i1, i2, i3, i4⟩ := ih he' hok' (f c (.cost now t)).1 (h1.trans (he now t (by simp)))
      rw [h2] at i2; rw [h3] at i3 i4
      refine ⟨i1, i2, ?_, i4⟩
      simpa [trace, told, hf.silent] using i3
    | stop =>
      obtain ⟨i1, i2, i3, i4⟩ := ih he' hok' (f c .stop).1 (by rw [hf.stop]; rfl)
      rw [hf.stop] at i1 i2 i3 i4 ⊢
      refine ⟨i1, i2, ?_, ?_⟩
      · simp only [trace, told, hf.stop]; exact i3
      · intro l h
        rcases i4 l h with h | h
        · cases h
        · exact .inr h
    | measured r =>
      have hm := hf.power.measured c r hc
      obtain ⟨i1, i2, i3, i4⟩ := ih he' hok' (f c (.measured r)).1 (by rw [hm, powerPart_fields]; exact hc)
      have hpow : (f c (.measured r)).1.power = c.power := by rw [hm, powerPart_fields]
      rw [hpow] at i2
      refine ⟨i1, i2, ?_, ?_⟩
      · rw [i3]
        simp only [trace, told]
        congr 1
        rw [hm]
        rcases hp : c.power with _ | threshold
        · simp [V16.powerPart]
        · rw [← hp]
          rcases powerPart_cases { c with reading := some r } r threshold hp with ⟨h1, h2⟩ | ⟨p, h1, h2, h3, h4⟩
          · rw [h1, h2]; rfl
          · rw [h2, h3]; simp [h1]
      · intro l h
        rcases i4 l h with h | h
        · rw [hm] at h
          cases hp : c.power with
          | none => simp only [V16.powerPart, hp] at h; exact .inl h
          | some threshold =>
            rcases powerPart_cases { c with reading := some r } r threshold hp with ⟨h1, h2⟩ | ⟨p, h1, h2, h3, h4⟩
            · rw [h2] at h; exact .inl h
            · rw [h3] at h
              simp only [Option.some.injEq] at h
              subst h
              exact .inr (by simp [powers, readings, h1])
        · refine .inr ?_
          simp only [powers, readings, List.filterMap_cons] at h ⊢
          cases r.power with
          | none => exact h
          | some p => exact List.mem_cons_of_mem _ h
    | status s =>
      obtain ⟨i1, i2, i3, i4⟩ := ih he' hok' (f c (.status s)).1 (by rw [hf.power.base.status]; exact hc)
      have h2 : (f c (.status s)).1.power = c.power := by rw [hf.power.base.status]
      have h3 : (f c (.status s)).1.last = c.last := by rw [hf.power.base.status]
      rw [h2] at i2; rw [h3] at i3 i4
      refine ⟨i1, i2, ?_, i4⟩
      simp only [trace, told, hf.statusOut]
      simpa using i3
    | clock now =>
      obtain ⟨i1, i2, i3, i4⟩ := ih he' hok' (f c (.clock now)).1 (by rw [hf.power.base.clock, fire_fields]; exact hc)
      have h2 : (f c (.clock now)).1.power = c.power := by rw [hf.power.base.clock, fire_fields]
      have h3 : (f c (.clock now)).1.last = c.last := by rw [hf.power.base.clock, fire_fields]
      rw [h2] at i2; rw [h3] at i3 i4
      refine ⟨i1, i2, ?_, i4⟩
      rw [hf.power.base.clock] at i3 ⊢
      simp only [trace, told, hf.power.base.clock, fire_power]
      simpa using i3

theorem side (f : Machine) (ok : Triggers → Prop) (hf : Sets f ok) (es : List Ev) (he : NoEnergy es)
    (hok : ∀ now t, .cost now t ∈ es → ok t) (threshold p : Int) (hpos : 0 < threshold)
    (ht : thresholdOf none es = some threshold) (hne : threshold ∉ powers es) (r : Reading) (hr : r.power = some p) :
    (21 * threshold ≤ 20 * p → ∃ l, told none (trace f {} (es ++ [.measured r])) = some l ∧ threshold < l) ∧
      (20 * p ≤ 19 * threshold → ∃ l, told none (trace f {} (es ++ [.measured r])) = some l ∧ l < threshold) := by
  obtain ⟨i1, i2, i3, i4⟩ := told_run f ok hf es he hok {} rfl
  obtain ⟨_, _, j3, _⟩ := told_run f ok hf (es ++ [.measured r])
    (fun now t h => he now t (by simpa using h)) (fun now t h => hok now t (by simpa using h)) {} rfl
  rw [show ({} : Con).last = none from rfl] at j3
  rw [← j3, run_append]
  have hlast : (run f (run f {} es) [.measured r]).last = (V16.powerPart { run f {} es with reading := some r } r).1.last := by
    rw [run_cons, ← hf.power.measured _ _ i1]; rfl
  rw [hlast]
  have hp : (run f {} es).power = some threshold := i2.trans ht
  have hne' : ∀ l, (run f {} es).last = some l → l ≠ threshold := by
    intro l h heq
    rcases i4 l h with h | h
    · cases h
    · exact hne (heq ▸ h)
  have hpart : (V16.powerPart { run f {} es with reading := some r } r).1.last =
      match (run f {} es).last with
      | none => some p
      | some l => if crossed threshold l p then some p else some l := by
    unfold V16.powerPart
    simp only [hp, hr]
    cases hl : (run f {} es).last with
    | none => rfl
    | some l => simp only; split <;> simp [hl]
  rw [hpart]
  constructor
  · intro hup
    cases hl : (run f {} es).last with
    | none => exact ⟨p, rfl, by omega⟩
    | some l =>
      have := hne' l hl
      simp only
      split
      · exact ⟨p, rfl, by omega⟩
      · rename_i hc
        refine ⟨l, rfl, ?_⟩
        simp only [crossed, Bool.or_eq_true, Bool.and_eq_true, decide_eq_true_eq, not_or, not_and] at hc
        omega
  · intro hdown
    cases hl : (run f {} es).last with
    | none => exact ⟨p, rfl, by omega⟩
    | some l =>
      have := hne' l hl
      simp only
      split
      · exact ⟨p, rfl, by omega⟩
      · rename_i hc
        refine ⟨l, rfl, ?_⟩
        simp only [crossed, Bool.or_eq_true, Bool.and_eq_true, decide_eq_true_eq, not_or, not_and] at hc
        omega

/-- C166 (OCPP 1.6): after every history (of cost messages without energy trigger), when the measured power is at least 5 %
above (below) the threshold of the last cost message, the last power that the CSMS was told in this transaction is above
(below) it: no crossing is missed.  Proved if no measured power is exactly the threshold. -/
theorem C166_side_v16_partial (offset : Int) (es : List Ev) (he : NoEnergy es) (threshold p : Int) (hpos : 0 < threshold)
    (ht : thresholdOf none es = some threshold) (hne : threshold ∉ powers es) (r : Reading) (hr : r.power = some p) :
    (21 * threshold ≤ 20 * p →
      ∃ l, told none (trace (V16.step offset) {} (es ++ [.measured r])) = some l ∧ threshold < l) ∧
      (20 * p ≤ 19 * threshold →
        ∃ l, told none (trace (V16.step offset) {} (es ++ [.measured r])) = some l ∧ l < threshold) :=
  side _ _ (sets16 offset) es he (fun _ _ _ => trivial) threshold p hpos ht hne r hr

/-- C166 (OCPP 2.x): the same, if every cost message has a trigger. -/
theorem C166_side_v2_partial (es : List Ev) (he : NoEnergy es) (hs : ∀ now t, .cost now t ∈ es → Some2 t)
    (threshold p : Int) (hpos : 0 < threshold) (ht : thresholdOf none es = some threshold) (hne : threshold ∉ powers es)
    (r : Reading) (hr : r.power = some p) :
    (21 * threshold ≤ 20 * p →
      ∃ l, told none (trace V2.step {} (es ++ [.measured r])) = some l ∧ threshold < l) ∧
      (20 * p ≤ 19 * threshold →
        ∃ l, told none (trace V2.step {} (es ++ [.measured r])) = some l ∧ l < threshold) :=
  side _ _ sets2 es he hs threshold p hpos ht hne r hr

/-- The hypotheses of the theorems for the power hold: the threshold is at 10 kW, the power 7, 10.2, 11 and 9 kW. -/
example :
    let es : List Ev := [.cost 0 { power := some 10000 }, .measured ⟨some 0, some 7000⟩, .measured ⟨some 1, some 10200⟩,
      .measured ⟨some 2, some 11000⟩]
    NoEnergy es ∧ (∀ now t, .cost now t ∈ es → Some2 t) ∧ thresholdOf none es = some 10000 ∧ 10000 ∉ powers es ∧
      atReadings (trace (V16.step 0) {} (es ++ [.measured ⟨some 3, some 9000⟩])) =
        [⟨some 0, some 7000⟩, ⟨some 2, some 11000⟩, ⟨some 3, some 9000⟩] := by
  refine ⟨?_, ?_, by decide, by decide, by decide⟩
  · intro now t h; simp at h; rw [h.2]
  · intro now t h; simp at h; rw [h.2]; exact .inr (.inl (by simp))

/-- C166 fails (both versions): if the first power is exactly the threshold, no crossing is ever told. -/
theorem C166_side_violated : ∃ (es : List Ev) (threshold : Int), NoEnergy es ∧
    (∀ now t, .cost now t ∈ es → Some2 t) ∧ 0 < threshold ∧ thresholdOf none es = some threshold ∧
    (∀ offset, atReadings (trace (V16.step offset) {} (es ++ [.measured ⟨some 1, some 22000⟩, .measured ⟨some 2, some 0⟩])) =
      [⟨some 0, some threshold⟩]) ∧
    atReadings (trace V2.step {} (es ++ [.measured ⟨some 1, some 22000⟩, .measured ⟨some 2, some 0⟩])) =
      [⟨some 0, some threshold⟩] := by
  refine ⟨[.cost 0 { power := some 11000 }, .measured ⟨some 0, some 11000⟩], 11000, ?_, ?_, by decide, by decide, ?_,
    by decide⟩
  · intro now t h; simp at h; rw [h.2]
  · intro now t h; simp at h; rw [h.2]; exact .inr (.inl (by simp))
  · intro offset; rfl

/-! ## C167: time -/

theorem no_timer (f : Machine) (hb : Base f) (ht : ∀ c r, (f c (.measured r)).1.timer = c.timer) (mid : List Ev)
    (hq : Quiet mid) (c : Con) (hc : c.timer = none) : atClock (trace f c mid) = [] := by
  induction mid generalizing c with
  | nil => rfl
  | cons e mid ih =>
    have hq' := quiet_tail hq
    cases e with
    | cost now t => exact absurd rfl ((hq _ (by simp)).1 now t)
    | stop => exact absurd rfl ((hq _ (by simp)).2)
    | measured r => simp only [trace, atClock]; exact ih hq' _ ((ht c r).trans hc)
    | status s => simp only [trace, atClock]; exact ih hq' _ (by rw [hb.status]; exact hc)
    | clock now =>
      have : f c (.clock now) = (c, []) := by rw [hb.clock]; simp [fire, hc]
      simp only [trace, atClock, this, List.nil_append]
      exact ih hq' _ hc

theorem with_timer (f : Machine) (hb : Base f) (ht : ∀ c r, (f c (.measured r)).1.timer = c.timer)
    (hr : ∀ c r, (f c (.measured r)).1.reading = some r) (time : Int) (mid : List Ev) (hq : Quiet mid) (c : Con)
    (hc : c.timer = some time) : atClock (trace f c mid) = atTime time c.reading mid := by
  induction mid generalizing c with
  | nil => rfl
  | cons e mid ih =>
    have hq' := quiet_tail hq
    cases e with
    | cost now t => exact absurd rfl ((hq _ (by simp)).1 now t)
    | stop => exact absurd rfl ((hq _ (by simp)).2)
    | measured r =>
      simp only [trace, atClock, atTime]
      rw [ih hq' _ ((ht c r).trans hc), hr]
    | status s =>
      simp only [trace, atClock, atTime]
      rw [ih hq' _ (by rw [hb.status]; exact hc), hb.status]
    | clock now =>
      simp only [trace, atClock, atTime, hb.clock]
      by_cases h : time ≤ now
      · have hf : fire c now = ({ c with timer := none }, energyOnly c.reading) := by simp [fire, hc, h]
        rw [hf, if_pos h, no_timer f hb ht mid hq' _ rfl, List.append_nil, energyOnly_eq]
      · have hf : fire c now = (c, []) := by simp [fire, hc, h]
        rw [hf, if_neg h, List.nil_append]
        exact ih hq' _ hc

theorem timer16 (offset : Int) (c : Con) (r : Reading) :
    (V16.step offset c (.measured r)).1.timer = c.timer ∧ (V16.step offset c (.measured r)).1.reading = some r := by
  simp only [V16.step, V16.onReading]
  split
  · split
    · exact ⟨rfl, rfl⟩
    · rw [powerPart_fields]; exact ⟨rfl, rfl⟩
  · rw [powerPart_fields]; exact ⟨rfl, rfl⟩

theorem powerPart2_fields (b : Bool) (c : Con) (r : Reading) :
    (V2.powerPart b c r).1 = { c with last := (V2.powerPart b c r).1.last } := by
  unfold V2.powerPart
  split
  · split
    · split <;> rfl
    · rfl
  · rfl

theorem timer2 (c : Con) (r : Reading) :
    (V2.step c (.measured r)).1.timer = c.timer ∧ (V2.step c (.measured r)).1.reading = some r := by
  simp only [V2.step, V2.onReading]
  rw [powerPart2_fields]
  unfold V2.energyPart
  split
  · split <;> exact ⟨rfl, rfl⟩
  · exact ⟨rfl, rfl⟩

/-- C167 (OCPP 1.6): with a time trigger that is not in the past, the energy of the last measurement is sent at that time
and only once.  Proved without DisplayTimeOffset. -/
theorem C167_time_v16_partial (now : Int) (c : Con) (t : Triggers) (time : Int) (ht : t.time = some time)
    (hn : now ≤ time) (mid : List Ev) (hq : Quiet mid) :
    atClock (trace (V16.step (V16.offsetOf none)) c (.cost now t :: mid)) = atTime time c.reading mid := by
  have h : (V16.setTriggers (V16.offsetOf none) now c t).timer = some time := by
    simp [V16.setTriggers, ht, V16.setTimer, V16.offsetOf, show ¬ time < now by omega]
  simp only [trace, atClock]
  rw [show (V16.step (V16.offsetOf none) c (.cost now t)).1 = V16.setTriggers (V16.offsetOf none) now c t from rfl,
    with_timer _ (base16 _) (fun c r => (timer16 _ c r).1) (fun c r => (timer16 _ c r).2) time mid hq _ h]
  rw [(set16 _ now c t).2.2.2.2.1]

/-- C167 (OCPP 2.x): the same. -/
theorem C167_time_v2 (now : Int) (c : Con) (t : Triggers) (time : Int) (ht : t.time = some time)
    (hn : now ≤ time) (mid : List Ev) (hq : Quiet mid) :
    atClock (trace V2.step c (.cost now t :: mid)) = atTime time c.reading mid := by
  have h : (V2.setTriggers now c t).timer = some time := by
    simp [V2.setTriggers, ht, V2.setTimer, show ¬ time < now by omega]
  simp only [trace, atClock]
  rw [show (V2.step c (.cost now t)).1 = V2.setTriggers now c t from rfl,
    with_timer _ base2 (fun c r => (timer2 c r).1) (fun c r => (timer2 c r).2) time mid hq _ h]
  rw [(set2 now c t (.inr (.inr (by simp [ht])))).2.2.2]

/-- The hypotheses of the theorems for the time hold. -/
example : Quiet [.measured ⟨some 5, none⟩, .clock 99, .clock 101, .clock 102] ∧
    atClock (trace (V16.step (V16.offsetOf none)) {} (.cost 0 { time := some 100 } ::
      [.measured ⟨some 5, none⟩, .clock 99, .clock 101, .clock 102])) = [⟨some 5, none⟩] := by
  refine ⟨?_, by decide⟩
  intro e he
  simp only [List.mem_cons, List.not_mem_nil, or_false] at he
  rcases he with rfl | rfl | rfl | rfl <;> simp

/-- C167 fails for OCPP 1.6: with DisplayTimeOffset "-05:30" a trigger for twelve o'clock fires at half past seven (the
time plus -5 hours plus 30 minutes), which is neither that time nor that time in the zone of the offset (17:30). -/
theorem C167_offset_v16_violated :
    atClock (trace (V16.step (V16.offsetOf (some (-5, 30)))) {} (.cost (6 * 3600) { time := some (12 * 3600) } ::
      [.measured ⟨some 5, none⟩, .clock (7 * 3600 + 1799), .clock (7 * 3600 + 1800), .clock (12 * 3600),
        .clock (17 * 3600 + 1800)])) = [⟨some 5, none⟩] ∧
    atClock (trace (V16.step (V16.offsetOf (some (-5, 30)))) {} (.cost (6 * 3600) { time := some (12 * 3600) } ::
      [.measured ⟨some 5, none⟩, .clock (7 * 3600 + 1799)])) = [] ∧
    atClock (trace (V16.step (V16.offsetOf (some (-5, 30)))) {} (.cost (6 * 3600) { time := some (12 * 3600) } ::
      [.measured ⟨some 5, none⟩, .clock (7 * 3600 + 1800)])) = [⟨some 5, none⟩] := by
  refine ⟨by decide, by decide, by decide⟩

/-- C167 fails (both versions): a cost message without time trigger leaves the time of an earlier message in place. -/
theorem C167_stale_violated : ∃ (t : Triggers) (mid : List Ev), Some2 t ∧ t.time = none ∧ Quiet mid ∧
    atClock (trace (V16.step 0) (run (V16.step 0) {} [.cost 0 { time := some 100 }]) (.cost 5 t :: mid)) =
      [⟨some 7, none⟩] ∧
    atClock (trace V2.step (run V2.step {} [.cost 0 { time := some 100 }]) (.cost 5 t :: mid)) = [⟨some 7, none⟩] := by
  refine ⟨{ energy := some 10000 }, [.measured ⟨some 7, none⟩, .clock 100], .inl (by simp), rfl, ?_, by decide, by decide⟩
  intro e he; simp only [List.mem_cons, List.not_mem_nil, or_false] at he; rcases he with rfl | rfl <;> simp

/-- C167 fails for OCPP 1.6: a time that is in the past leaves the time of an earlier message in place. -/
theorem C167_past_v16_violated :
    atClock (trace (V16.step 0) (run (V16.step 0) {} [.cost 0 { time := some 100 }])
      [.cost 50 { time := some 40 }, .measured ⟨some 7, none⟩, .clock 100]) = [⟨some 7, none⟩] := by decide

/-! ## C168: status (OCPP 1.6) -/

theorem quiet_status (offset : Int) (l : List Status) (mid : List Ev) (hq : Quiet mid) (c : Con)
    (hs : c.status = some l) (now : Option Status) (hp : c.previous = none ∨ c.previous = now)
    (hch : Changing now mid) : atStatus (trace (V16.step offset) c mid) = atStatuses l c.reading mid := by
  induction mid generalizing c now with
  | nil => rfl
  | cons e mid ih =>
    have hq' := quiet_tail hq
    cases e with
    | cost now t => exact absurd rfl ((hq _ (by simp)).1 now t)
    | stop => exact absurd rfl ((hq _ (by simp)).2)
    | measured r =>
      simp only [trace, atStatus, atStatuses]
      have hf : (V16.step offset c (.measured r)).1.status = c.status ∧
          (V16.step offset c (.measured r)).1.previous = c.previous := by
        simp only [V16.step, V16.onReading]
        split
        · split
          · exact ⟨rfl, rfl⟩
          · rw [powerPart_fields]; exact ⟨rfl, rfl⟩
        · rw [powerPart_fields]; exact ⟨rfl, rfl⟩
      rw [ih hq' _ (hf.1.trans hs) now (by rw [hf.2]; exact hp) hch, (timer16 offset c r).2]
    | clock t =>
      simp only [trace, atStatus, atStatuses, V16.step]
      have := ih hq' (fire c t).1 (by rw [fire_fields]; exact hs) now (by rw [fire_fields]; exact hp) hch
      rw [this, fire_fields]
    | status s =>
      obtain ⟨h1, h2⟩ := hch
      simp only [trace, atStatus, atStatuses, V16.step, V16.onStatus, hs]
      refine congr (congrArg _ ?_) (ih hq' _ rfl (some s) (.inr rfl) h2)
      have hne : (c.previous != some s) = true := by
        rcases hp with hp | hp
        · rw [hp]; rfl
        · rw [hp]; simpa using h1
      rw [hne, Bool.and_true, energyOnly_eq]
      by_cases hm : s ∈ l <;> simp [hm]

theorem no_status (offset : Int) (mid : List Ev)
    (hm : ∀ e ∈ mid, ∀ now t, e = .cost now t → t.status = none) (c : Con)
    (hs : c.status = none) (hp : c.previous = none) :
    (run (V16.step offset) c mid).status = none ∧ (run (V16.step offset) c mid).previous = none := by
  induction mid generalizing c with
  | nil => exact ⟨hs, hp⟩
  | cons e mid ih =>
    have hm' : ∀ e ∈ mid, ∀ now t, e = .cost now t → t.status = none := fun e he => hm e (by simp [he])
    rw [run_cons]
    cases e with
    | cost now t =>
      obtain ⟨_, _, h3, _, _, h6⟩ := set16 offset now c t
      exact ih hm' _ (h3.trans (hm _ (by simp) now t rfl)) (h6.trans hp)
    | stop => exact ih hm' _ rfl rfl
    | measured r =>
      have hf : (V16.step offset c (.measured r)).1.status = c.status ∧
          (V16.step offset c (.measured r)).1.previous = c.previous := by
        simp only [V16.step, V16.onReading]
        split
        · split
          · exact ⟨rfl, rfl⟩
          · rw [powerPart_fields]; exact ⟨rfl, rfl⟩
        · rw [powerPart_fields]; exact ⟨rfl, rfl⟩
      exact ih hm' _ (hf.1.trans hs) (hf.2.trans hp)
    | clock t =>
      have h : (V16.step offset c (.clock t)).1 = (fire c t).1 := rfl
      rw [h]
      exact ih hm' _ (by rw [fire_fields]; exact hs) (by rw [fire_fields]; exact hp)
    | status s =>
      have : V16.step offset c (.status s) = (c, []) := by simp [V16.step, V16.onStatus, hs]
      rw [this]; exact ih hm' _ hs hp

/-- C168: after every history, a cost message with status triggers that is the first one with such triggers in its
transaction has the effect that the energy of the last measurement is sent whenever the status becomes one of them (as long
as every report of a status tells a change). -/
theorem C168_status_partial (offset now : Int) (before mid0 mid : List Ev) (t : Triggers) (l : List Status)
    (ht : t.status = some l) (hm : ∀ e ∈ mid0, ∀ now t, e = .cost now t → t.status = none) (hq : Quiet mid)
    (hch : Changing (statusOf none (before ++ .stop :: mid0)) mid) :
    atStatus (trace (V16.step offset) (run (V16.step offset) {} (before ++ .stop :: mid0)) (.cost now t :: mid)) =
      atStatuses l (run (V16.step offset) {} (before ++ .stop :: mid0)).reading mid := by
  have h := no_status offset mid0 hm (V16.step offset (run (V16.step offset) {} before) .stop).1 rfl rfl
  rw [run_append, run_cons]
  obtain ⟨_, _, h3, _, h5, h6⟩ := set16 offset now
    (run (V16.step offset) (V16.step offset (run (V16.step offset) {} before) .stop).1 mid0) t
  simp only [trace, atStatus]
  have hstep : ∀ c, (V16.step offset c (.cost now t)).1 = V16.setTriggers offset now c t := fun _ => rfl
  rw [hstep]
  rw [quiet_status offset l mid hq _ (h3.trans ht) (statusOf none (before ++ .stop :: mid0))
    (.inl (h6.trans h.2)) hch, h5]

/-- The hypotheses of `C168_status_partial` hold: status 2, then triggers for 3 and 5, then 3, 4 and 5. -/
example : (∀ e ∈ ([.status 2, .measured ⟨some 5, none⟩] : List Ev), ∀ now t, e = .cost now t → t.status = none) ∧
    Quiet [.status 3, .measured ⟨some 6, none⟩, .status 4, .status 5] ∧
    Changing (statusOf none ([.status 1] ++ .stop :: [.status 2, .measured ⟨some 5, none⟩]))
      [.status 3, .measured ⟨some 6, none⟩, .status 4, .status 5] ∧
    atStatuses [3, 5] (some ⟨some 5, none⟩) [.status 3, .measured ⟨some 6, none⟩, .status 4, .status 5] =
      [⟨some 5, none⟩, ⟨some 6, none⟩] := by
  refine ⟨?_, ?_, ?_, by decide⟩
  · intro e he now t h
    subst h
    simp at he
  · intro e he
    simp only [List.mem_cons, List.not_mem_nil, or_false] at he
    rcases he with rfl | rfl | rfl | rfl <;> simp
  · simp [Changing, statusOf]

/-- C168 fails: a status that was sent for an earlier cost message and was left while no status trigger was set is not
sent when it comes back. -/
theorem C168_stale_violated : ∃ (pre mid : List Ev) (t : Triggers) (l : List Status), t.status = some l ∧ Quiet mid ∧
    Changing (statusOf none pre) mid ∧ ∀ offset now,
      atStatuses l (run (V16.step offset) {} pre).reading mid = [⟨some 5, none⟩] ∧
      atStatus (trace (V16.step offset) (run (V16.step offset) {} pre) (.cost now t :: mid)) = [] := by
  refine ⟨[.measured ⟨some 5, none⟩, .cost 0 { status := some [3] }, .status 3, .cost 1 {}, .status 4], [.status 3],
    { status := some [3] }, [3], rfl, ?_, ?_, ?_⟩
  · intro e he; simp only [List.mem_singleton] at he; subst he; simp
  · simp [Changing, statusOf]
  · intro offset now; exact ⟨rfl, rfl⟩

/-- C168 fails: the first report after the cost message is taken for a change, even if it repeats the status (as the report
of an error does). -/
theorem C168_repeated_violated : ∃ (pre : List Ev) (s : Status), statusOf none pre = some s ∧ ∀ offset now,
    atStatus (trace (V16.step offset) (run (V16.step offset) {} pre)
      [.cost now { status := some [s] }, .status s]) = [⟨some 5, none⟩] :=
  ⟨[.status 3, .measured ⟨some 5, none⟩], 3, rfl, fun _ _ => rfl⟩

end Verif.Price
