import Verif.Met16.Spec

/-!
# Theorems about meter values (OCPP 1.6)
-/

namespace Verif.Met16

/-! ## The measurands of a key -/

theorem addNew_new (acc : List Wanted) (w : Wanted) (h : w ∉ acc) : addNew acc w = acc ++ [w] := by
  simp [addNew, h]

theorem addPhases (k : Measurand) (ps : List Phase) (hn : ps.Nodup) (acc : List Wanted)
    (h : ∀ p ∈ ps, (⟨k, some p⟩ : Wanted) ∉ acc) :
    ps.foldl (fun acc p => addNew acc ⟨k, some p⟩) acc = acc ++ ps.map (fun p => ⟨k, some p⟩) := by
  induction ps generalizing acc with
  | nil => simp
  | cons p ps ih =>
    rw [List.foldl_cons, addNew_new _ _ (h p (by simp)), ih (List.nodup_cons.1 hn).2]
    · simp
    · intro q hq hm
      rcases List.mem_append.1 hm with hm | hm
      · exact h q (by simp [hq]) hm
      · simp only [List.mem_singleton, Wanted.mk.injEq, Option.some.injEq, true_and] at hm
        exact (List.nodup_cons.1 hn).1 (hm ▸ hq)

/-- What is wanted for one measurand. -/
def wantedFor (k : Measurand) : List Wanted := ⟨k, none⟩ :: (phasesOf k).map (fun p => ⟨k, some p⟩)

theorem addMeasurand_eq (supported : List Measurand) (k : Measurand) (hk : k ∈ supported) (acc : List Wanted)
    (h : ∀ w ∈ acc, w.measurand ≠ k) : addMeasurand supported acc k = acc ++ wantedFor k := by
  unfold addMeasurand
  by_cases hp : (phasesOf k).isEmpty = true
  · rw [if_neg (by simp [hp]), addNew_new _ _ (fun hm => h _ hm rfl)]
    have : phasesOf k = [] := by simpa using hp
    simp [wantedFor, this]
  · rw [if_pos (by simp [hk, hp]), addPhases k _ (by cases k <;> decide)]
    · simp [wantedFor]
    · intro p _ hm
      rcases List.mem_append.1 hm with hm | hm
      · exact h _ hm rfl
      · simp at hm

theorem wantedOf_acc (supported ks : List Measurand) (hs : ∀ k ∈ ks, k ∈ supported) (hn : ks.Nodup) (acc : List Wanted)
    (h : ∀ w ∈ acc, w.measurand ∉ ks) :
    ks.foldl (addMeasurand supported) acc = acc ++ ks.flatMap wantedFor := by
  induction ks generalizing acc with
  | nil => simp
  | cons k ks ih =>
    obtain ⟨hn1, hn2⟩ := List.nodup_cons.1 hn
    rw [List.foldl_cons, addMeasurand_eq supported k (hs k (by simp)) acc (fun w hw he => h w hw (by simp [he])),
      ih (fun k hk => hs k (by simp [hk])) hn2]
    · simp
    · intro w hw hm
      rcases List.mem_append.1 hw with hw | hw
      · exact h w hw (by simp [hm])
      · have : w.measurand = k := by
          simp only [wantedFor, List.mem_cons, List.mem_map] at hw
          rcases hw with rfl | ⟨p, _, rfl⟩ <;> rfl
        exact hn1 (this ▸ hm)

theorem wantedOf_eq (supported ks : List Measurand) (hs : ∀ k ∈ ks, k ∈ supported) (hn : ks.Nodup) :
    wantedOf supported ks = ks.flatMap wantedFor := by
  rw [wantedOf, wantedOf_acc supported ks hs hn [] (by simp)]; simp

/-! ## The samples -/

theorem allSamples_append (c : Connector) (m : Measurement) (ctx : Context) (a b : List Wanted) (x y : List Sample)
    (ha : allSamples c m ctx a = some x) (hb : allSamples c m ctx b = some y) :
    allSamples c m ctx (a ++ b) = some (x ++ y) := by
  induction a generalizing x with
  | nil => simp only [allSamples, Option.some.injEq] at ha; subst ha; simpa using hb
  | cons w a ih =>
    simp only [allSamples] at ha
    cases h1 : samplesOf c m ctx w with
    | none => simp [h1] at ha
    | some u =>
      cases h2 : allSamples c m ctx a with
      | none => simp [h1, h2] at ha
      | some v =>
        simp only [h1, h2, Option.some.injEq] at ha
        subst ha
        simp [allSamples, h1, ih v h2]

theorem temperatures_eq (s : Sample) (l : List (Val × Option LocText)) (h : ∀ v, (v, some .unknown) ∉ l)
    (b : Option Location) :
    temperatureSamples s b l =
      l.map (fun x => { s with
        content := .number x.1
        location := locationOr none x.2 }) := by
  induction l generalizing b with
  | nil => rfl
  | cons x l ih =>
    obtain ⟨v, t⟩ := x
    rw [temperatureSamples, ih (fun v hv => h v (by simp [hv])), List.map_cons]
    congr 1
    rcases t with _ | (l' | _)
    · rfl
    · rfl
    · exact absurd (List.mem_cons_self ..) (h v)

theorem samples_for (c : Connector) (m : Measurement) (ctx : Context) (k : Measurand) (hl : KnownLocations m)
    (hn : NoNeutral m) : allSamples c m ctx (wantedFor k) = some (samplesFor c m ctx k) := by
  obtain ⟨h1, h2, h3⟩ := hl
  cases k
  case soc =>
    rcases hs : m.soc with _ | ⟨v, _ | l | _⟩
    · simp [wantedFor, phasesOf, allSamples, samplesOf, samplesFor, readings, hs, located]
    · simp [wantedFor, phasesOf, allSamples, samplesOf, samplesFor, readings, hs, located, locationOr, fresh, unitOf]
    · simp [wantedFor, phasesOf, allSamples, samplesOf, samplesFor, readings, hs, located, locationOr, fresh, unitOf]
    · exact absurd hs (h1 v)
  case rpm =>
    rcases hs : m.rpm with _ | ⟨v, _ | l | _⟩
    · simp [wantedFor, phasesOf, allSamples, samplesOf, samplesFor, readings, hs, located]
    · simp [wantedFor, phasesOf, allSamples, samplesOf, samplesFor, readings, hs, located, locationOr, fresh, unitOf]
    · simp [wantedFor, phasesOf, allSamples, samplesOf, samplesFor, readings, hs, located, locationOr, fresh, unitOf]
    · exact absurd hs (h2 v)
  case temperature =>
    simp [wantedFor, phasesOf, allSamples, samplesOf, samplesFor, readings, unitOf, temperatures_eq _ _ h3, fresh,
      Function.comp_def]
  case currentImport =>
    cases hc : m.current with
    | none => simp [wantedFor, phasesOf, allSamples, samplesOf, samplesFor, readings, hc, sampleIf, atOutlet]
    | some e =>
      have hn' := hn e hc
      obtain ⟨dc, l1, l2, l3, n⟩ := e
      simp only at hn'
      subst hn'
      cases dc <;> cases l1 <;> cases l2 <;> cases l3 <;>
        simp [wantedFor, phasesOf, allSamples, samplesOf, samplesFor, readings, hc, sampleIf, atOutlet, valueAt,
          electricValue, fresh, withPhase, unitOf]
  case voltage =>
    cases hc : m.voltage with
    | none => simp [wantedFor, phasesOf, allSamples, samplesOf, samplesFor, readings, hc, sampleIf, atOutlet]
    | some e =>
      obtain ⟨dc, l1, l2, l3, n⟩ := e
      cases dc <;> cases l1 <;> cases l2 <;> cases l3 <;>
        simp [wantedFor, phasesOf, allSamples, samplesOf, samplesFor, readings, hc, sampleIf, atOutlet, valueAt,
          electricValue, fresh, withPhase, unitOf]
  case frequency =>
    cases hc : m.frequency with
    | none => simp [wantedFor, phasesOf, allSamples, samplesOf, samplesFor, readings, hc, sampleIf]
    | some e =>
      obtain ⟨l1, l2, l3⟩ := e
      cases l2 <;> cases l3 <;>
        simp [wantedFor, phasesOf, allSamples, samplesOf, samplesFor, readings, hc, sampleIf, valueAt,
          freqValue, fresh, withPhase, unitOf]
  case powerActiveImport =>
    cases hc : m.power with
    | none => simp [wantedFor, phasesOf, allSamples, samplesOf, samplesFor, readings, hc, sampleIf, atOutlet]
    | some e =>
      obtain ⟨t, l1, l2, l3⟩ := e
      cases l1 <;> cases l2 <;> cases l3 <;>
        simp [wantedFor, phasesOf, allSamples, samplesOf, samplesFor, readings, hc, sampleIf, atOutlet, valueAt,
          phasedValue, fresh, withPhase, unitOf]
  case energyActiveExportRegister =>
    cases hc : m.energyExport with
    | none => simp [wantedFor, phasesOf, allSamples, samplesOf, samplesFor, readings, hc, sampleIf]
    | some e =>
      obtain ⟨t, l1, l2, l3⟩ := e
      cases l1 <;> cases l2 <;> cases l3 <;>
        simp [wantedFor, phasesOf, allSamples, samplesOf, samplesFor, readings, hc, sampleIf, valueAt,
          phasedValue, fresh, withPhase, unitOf]
  case energyActiveImportRegister =>
    rcases hc : m.energyImport with ⟨t, l1, l2, l3⟩
    cases l1 <;> cases l2 <;> cases l3 <;>
      simp [wantedFor, phasesOf, allSamples, samplesOf, samplesFor, readings, hc, sampleIf, atOutlet, valueAt,
        phasedValue, fresh, withPhase, unitOf]
  all_goals
    simp [wantedFor, phasesOf, allSamples, samplesOf, samplesFor, readings, sampleIf, fresh, unitOf]

theorem allSamples_report (c : Connector) (m : Measurement) (ctx : Context) (ks : List Measurand)
    (hl : KnownLocations m) (hn : NoNeutral m) :
    allSamples c m ctx (ks.flatMap wantedFor) = some (report c m ctx ks) := by
  induction ks with
  | nil => rfl
  | cons k ks ih =>
    rw [List.flatMap_cons, allSamples_append c m ctx _ _ _ _ (samples_for c m ctx k hl hn) ih]
    rfl

theorem latest_eq (c : Connector) (m : Measurement) (hm : c.measurement = some m) (supported ks : List Measurand)
    (ctx : Context) (hs : ∀ k ∈ ks, k ∈ supported) (hd : ks.Nodup) (hl : KnownLocations m) (hn : NoNeutral m) :
    latest c (wantedOf supported ks) ctx = .value ⟨m.time, report c m ctx ks⟩ := by
  unfold latest
  rw [hm, wantedOf_eq supported ks hs hd]
  simp only [allSamples_report c m ctx ks hl hn]

/-! ## Histories -/

theorem run_append (cfg : Cfg) (s : St) (a b : List Ev) : run cfg s (a ++ b) = run cfg (run cfg s a) b := by
  simp [run]

theorem run_cons (cfg : Cfg) (s : St) (e : Ev) (b : List Ev) : run cfg s (e :: b) = run cfg (step cfg s e).1 b := rfl

theorem fire_con (s : St) (r : Latest) : (fire s r).1.con = s.con := by cases r <;> rfl

theorem known_append (c : Connector) (a b : List Ev) : known c (a ++ b) = known (known c a) b := by
  induction a generalizing c with
  | nil => rfl
  | cons e a ih => cases e <;> exact ih _

/-- The connector after a history. -/
theorem run_con (cfg : Cfg) (s : St) (es : List Ev) : (run cfg s es).con = known s.con es := by
  induction es generalizing s with
  | nil => rfl
  | cons e es ih =>
    rw [run_cons, ih]
    cases e with
    | measured m => rfl
    | offered a p => rfl
    | start x => rfl
    | stop x => cases h : s.tx <;> simp [step, h, known]
    | sample => cases h : s.tx <;> simp [step, h, known, fire_con]
    | aligned => simp [step, known, fire_con]

/-- Every measurement that is known was reported. -/
theorem known_measurement (c : Connector) (es : List Ev) (m : Measurement)
    (h : (known c es).measurement = some m) : c.measurement = some m ∨ m ∈ measurements es := by
  induction es generalizing c with
  | nil => exact .inl h
  | cons e es ih =>
    cases e with
    | measured x =>
      rcases ih _ h with h | h
      · simp only [Option.some.injEq] at h; subst h; exact .inr (by simp [measurements])
      · exact .inr (by simp [measurements, h])
    | offered a p =>
      exact ih
        { c with
          maxCurrent := a
          maxPower := p } h
    | start x => exact ih _ h
    | stop x => exact ih _ h
    | sample => exact ih _ h
    | aligned => exact ih _ h

/-! ## C163 -/

/-- The measurands of the key are supported and listed once. -/
def ProperKey (cfg : Cfg) (ks : List Measurand) : Prop := (∀ k ∈ ks, k ∈ cfg.supported) ∧ ks.Nodup

instance (cfg : Cfg) (ks : List Measurand) : Decidable (ProperKey cfg ks) := inferInstanceAs (Decidable (_ ∧ _))

/-- C163 (clock-aligned): after every history, MeterValues.req at a clock-aligned time has exactly the readings of the last
measurement for the measurands of MeterValuesAlignedData; nothing is sent if there are none. -/
theorem C163_aligned_partial (cfg : Cfg) (es : List Ev) (m : Measurement)
    (hm : (known {} es).measurement = some m) (hk : ProperKey cfg cfg.aligned) (hl : KnownLocations m)
    (hn : NoNeutral m) :
    (step cfg (run cfg {} es) .aligned).2 =
      if report (known {} es) m .clock cfg.aligned = [] then []
      else [.meterValues ⟨m.time, report (known {} es) m .clock cfg.aligned⟩] := by
  have hc : (run cfg {} es).con = known {} es := run_con cfg {} es
  simp only [step]
  rw [hc, latest_eq _ m hm _ _ _ hk.1 hk.2 hl hn]
  simp only [fire, send, List.isEmpty_iff]

/-- C163 (sampled): the same for the sample times of a transaction. -/
theorem C163_sampled_partial (cfg : Cfg) (es : List Ev) (m : Measurement)
    (hm : (known {} es).measurement = some m) (ht : (run cfg {} es).tx ≠ none) (hk : ProperKey cfg cfg.sampled)
    (hl : KnownLocations m) (hn : NoNeutral m) :
    (step cfg (run cfg {} es) .sample).2 =
      if report (known {} es) m .periodic cfg.sampled = [] then []
      else [.meterValues ⟨m.time, report (known {} es) m .periodic cfg.sampled⟩] := by
  have hc : (run cfg {} es).con = known {} es := run_con cfg {} es
  simp only [step]
  cases h : (run cfg {} es).tx with
  | none => exact absurd h ht
  | some t =>
    simp only
    rw [hc, latest_eq _ m hm _ _ _ hk.1 hk.2 hl hn]
    simp only [fire, send, List.isEmpty_iff]

/-- C163 (nothing measured): without a measurement nothing is sent. -/
theorem C163_unmeasured (cfg : Cfg) (es : List Ev) (hm : (known {} es).measurement = none) (e : Ev)
    (he : e = .sample ∨ e = .aligned) : (step cfg (run cfg {} es) e).2 = [] := by
  have hc : (run cfg {} es).con = known {} es := run_con cfg {} es
  rcases he with rfl | rfl
  · simp only [step]
    cases h : (run cfg {} es).tx with
    | none => rfl
    | some t => simp [hc, latest, hm, fire]
  · simp [step, hc, latest, hm, fire]

/-- A measurement of a three-phase meter and a car with two temperature sensors. -/
def aMeasurement : Measurement :=
  { time := 100
    energyImport := ⟨5000, some 2000, some 1500, some 1500⟩
    power := some ⟨11000, some 3600, none, some 3700⟩
    voltage := some { l1 := some 230, l2 := some 231, l3 := some 229 }
    current := some { l1 := some 16, l2 := some 15, l3 := some 16 }
    soc := some (55, none)
    temperatures := [(40, some (.known .cable)), (35, none)] }

/-- A configuration. -/
def aCfg : Cfg :=
  { supported := [.energyActiveImportRegister, .powerActiveImport, .voltage, .currentImport, .soc, .temperature]
    sampled := [.energyActiveImportRegister, .powerActiveImport, .soc]
    aligned := [.energyActiveImportRegister, .temperature]
    stopSampled := [.energyActiveImportRegister]
    stopAligned := [.temperature] }

theorem aMeasurement_ok : KnownLocations aMeasurement ∧ NoNeutral aMeasurement := by
  refine ⟨⟨?_, ?_, ?_⟩, ?_⟩
  · intro v h; simp [aMeasurement] at h
  · intro v h; simp [aMeasurement] at h
  · intro v h; simp [aMeasurement] at h
  · intro e h; simp only [aMeasurement, Option.some.injEq] at h; subst h; rfl

/-- The hypotheses of `C163_sampled_partial` and `C163_aligned_partial` hold: a transaction with two measurements. -/
example : (known {} [.start none, .measured aMeasurement]).measurement = some aMeasurement ∧
    (run aCfg {} [.start none, .measured aMeasurement]).tx ≠ none ∧ ProperKey aCfg aCfg.sampled ∧
    ProperKey aCfg aCfg.aligned ∧ KnownLocations aMeasurement ∧ NoNeutral aMeasurement :=
  ⟨rfl, by decide, by decide, by decide, aMeasurement_ok.1, aMeasurement_ok.2⟩

/-- What is sent then: the energy with its phases, the power with the two phases that were measured, the state of charge. -/
example : (step aCfg (run aCfg {} [.start none, .measured aMeasurement]) .sample).2 =
    [.meterValues ⟨100,
      [⟨.number 5000, .periodic, some .energyActiveImportRegister, none, some .outlet, some .wh⟩,
       ⟨.number 2000, .periodic, some .energyActiveImportRegister, some .l1, some .outlet, some .wh⟩,
       ⟨.number 1500, .periodic, some .energyActiveImportRegister, some .l2, some .outlet, some .wh⟩,
       ⟨.number 1500, .periodic, some .energyActiveImportRegister, some .l3, some .outlet, some .wh⟩,
       ⟨.number 11000, .periodic, some .powerActiveImport, none, some .outlet, some .w⟩,
       ⟨.number 3600, .periodic, some .powerActiveImport, some .l1, some .outlet, some .w⟩,
       ⟨.number 3700, .periodic, some .powerActiveImport, some .l3, some .outlet, some .w⟩,
       ⟨.number 55, .periodic, some .soc, none, some .ev, some .percent⟩]⟩] := by decide

/-- C163 fails: the current of the neutral conductor is not sent although it was measured and N is one of the phases that
are sent. -/
theorem C163_neutral_violated : ∃ (cfg : Cfg) (m : Measurement), ProperKey cfg cfg.aligned ∧ KnownLocations m ∧
    (∃ s ∈ report (known {} [.measured m]) m .clock cfg.aligned, s.phase = some .n) ∧
    ∀ v, .meterValues v ∈ (step cfg (run cfg {} [.measured m]) .aligned).2 → ∀ s ∈ v.samples, s.phase ≠ some .n := by
  refine ⟨⟨[.currentImport], [], [.currentImport], [], []⟩,
    { time := 0, energyImport := ⟨1, none, none, none⟩, current := some { l1 := some 16, n := some 5 } },
    by decide, ⟨?_, ?_, ?_⟩, by decide, ?_⟩
  · intro v h; simp at h
  · intro v h; simp at h
  · intro v h; simp at h
  · intro v hv
    have : (step ⟨[.currentImport], [], [.currentImport], [], []⟩
        (run ⟨[.currentImport], [], [.currentImport], [], []⟩ {} [.measured
          { time := 0, energyImport := ⟨1, none, none, none⟩, current := some { l1 := some 16, n := some 5 } }])
        .aligned).2 = [.meterValues ⟨0, [⟨.number 16, .clock, some .currentImport, some .l1, some .outlet, some .a⟩]⟩] := by
      decide
    rw [this] at hv
    simp only [List.mem_singleton, Out.meterValues.injEq] at hv
    subst hv
    decide

/-- C163 fails: a measurand that is listed twice is sent twice (only its total, not its phases). -/
theorem C163_twice_violated : ∃ (cfg : Cfg) (m : Measurement), (∀ k ∈ cfg.aligned, k ∈ cfg.supported) ∧
    KnownLocations m ∧ NoNeutral m ∧
    (step cfg (run cfg {} [.measured m]) .aligned).2 =
      [.meterValues ⟨m.time, report (known {} [.measured m]) m .clock [.powerActiveImport] ++
        [⟨.number 11000, .clock, some .powerActiveImport, none, some .outlet, some .w⟩]⟩] ∧
    cfg.aligned = [.powerActiveImport, .powerActiveImport] := by
  refine ⟨⟨[.powerActiveImport], [], [.powerActiveImport, .powerActiveImport], [], []⟩, aMeasurement, by decide,
    aMeasurement_ok.1, aMeasurement_ok.2, by decide, rfl⟩

/-- C163 fails: when the location of the state of charge is none of OCPP, the handler of the timer throws and nothing is
sent. -/
theorem C163_location_violated : ∃ (cfg : Cfg) (m : Measurement), ProperKey cfg cfg.aligned ∧ NoNeutral m ∧
    report (known {} [.measured m]) m .clock cfg.aligned ≠ [] ∧
    (step cfg (run cfg {} [.measured m]) .aligned).2 = [.throws] := by
  refine ⟨⟨[.soc], [], [.soc], [], []⟩,
    { time := 0, energyImport := ⟨1, none, none, none⟩, soc := some (55, some .unknown) }, by decide, ?_, by decide,
    by decide⟩
  intro e h; simp at h

/-- C163 fails: a temperature whose location is none of OCPP is reported for the location of the sensor before it. -/
theorem C163_temperature_violated : ∃ (cfg : Cfg) (m : Measurement), ProperKey cfg cfg.aligned ∧ NoNeutral m ∧
    m.temperatures = [(40, some (.known .cable)), (35, some .unknown)] ∧
    (step cfg (run cfg {} [.measured m]) .aligned).2 =
      [.meterValues ⟨0, [⟨.number 40, .clock, some .temperature, none, some .cable, some .celsius⟩,
        ⟨.number 35, .clock, some .temperature, none, some .cable, some .celsius⟩]⟩] := by
  refine ⟨⟨[.temperature], [], [.temperature], [], []⟩,
    { time := 0
      energyImport := ⟨1, none, none, none⟩
      temperatures := [(40, some (.known .cable)), (35, some .unknown)] }, by decide, ?_, rfl, by decide⟩
  intro e h; simp at h

/-! ## C164 -/

/-- No transaction starts or stops. -/
def Quiet (es : List Ev) : Prop := ∀ e ∈ es, (∀ x, e ≠ .start x) ∧ ∀ x, e ≠ .stop x

theorem samplesFor_measurand (c : Connector) (m : Measurement) (ctx : Context) (k : Measurand) (s : Sample)
    (h : s ∈ samplesFor c m ctx k) : s.measurand = some k ∧ s.context = ctx := by
  simp only [samplesFor, List.mem_flatMap, List.mem_map] at h
  obtain ⟨p, _, r, _, rfl⟩ := h
  exact ⟨rfl, rfl⟩

theorem mem_report (c : Connector) (m : Measurement) (ctx : Context) (ks : List Measurand) (s : Sample) :
    s ∈ report c m ctx ks ↔ ∃ k ∈ ks, s ∈ samplesFor c m ctx k := by
  simp [report]

/-- What is kept of a meter value that was recorded. -/
theorem keep_report (cfg : Cfg) (c : Connector) (m : Measurement) (ctx : Context) (ks stops : List Measurand)
    (hs : ∀ k ∈ stops, k ∈ ks)
    (hc : ∀ k, (if ctx = .clock then cfg.stopAligned.contains k else cfg.stopSampled.contains k) = stops.contains k) :
    ∀ s, s ∈ (report c m ctx ks).filter (keep cfg) ↔ s ∈ report c m ctx stops := by
  intro s
  rw [List.mem_filter, mem_report, mem_report]
  constructor
  · rintro ⟨⟨k, hk, h⟩, hkeep⟩
    obtain ⟨h1, h2⟩ := samplesFor_measurand c m ctx k s h
    simp only [keep, h1, h2, hc] at hkeep
    exact ⟨k, by simpa using hkeep, h⟩
  · rintro ⟨k, hk, h⟩
    obtain ⟨h1, h2⟩ := samplesFor_measurand c m ctx k s h
    refine ⟨⟨k, hs k hk, h⟩, ?_⟩
    simp only [keep, h1, h2, hc]
    simpa using hk

theorem SameData.refl (l : List MeterValue) : SameData l l := by
  induction l with
  | nil => exact .nil
  | cons a l ih => exact .cons ⟨rfl, fun _ => Iff.rfl⟩ ih

theorem SameData.append {a b x y : List MeterValue} (h : SameData a b) (g : SameData x y) :
    SameData (a ++ x) (b ++ y) := by
  induction h with
  | nil => exact g
  | cons h _ ih => exact .cons h ih

theorem sameValue_empty {a b : MeterValue} (h : SameValue a b) : a.samples.isEmpty = b.samples.isEmpty := by
  obtain ⟨_, h⟩ := h
  cases ha : a.samples with
  | nil =>
    cases hb : b.samples with
    | nil => rfl
    | cons x l => exact absurd ((h x).2 (by simp [hb])) (by simp [ha])
  | cons x l =>
    cases hb : b.samples with
    | nil => exact absurd ((h x).1 (by simp [ha])) (by simp [hb])
    | cons y k => rfl

theorem SameData.filter {a b : List MeterValue} (h : SameData a b) :
    SameData (a.filter (fun v => !v.samples.isEmpty)) (b.filter (fun v => !v.samples.isEmpty)) := by
  induction h with
  | nil => exact .nil
  | @cons x y as bs h _ ih =>
    rw [List.filter_cons, List.filter_cons, sameValue_empty h]
    cases y.samples.isEmpty with
    | true => simpa using ih
    | false => simpa using SameData.cons h ih

/-- What StopTransaction.req keeps of the recorded meter values. -/
def kept (cfg : Cfg) (vs : List MeterValue) : List MeterValue :=
  vs.map (fun v => (⟨v.time, v.samples.filter (keep cfg)⟩ : MeterValue))

theorem kept_append (cfg : Cfg) (a b : List MeterValue) : kept cfg (a ++ b) = kept cfg a ++ kept cfg b := by
  simp [kept]

/-- The keys for StopTransaction.req ask for nothing that is not sampled, and the keys are proper. -/
def Covered (cfg : Cfg) : Prop :=
  ProperKey cfg cfg.sampled ∧ ProperKey cfg cfg.aligned ∧ (∀ k ∈ cfg.stopSampled, k ∈ cfg.sampled) ∧
    ∀ k ∈ cfg.stopAligned, k ∈ cfg.aligned

instance (cfg : Cfg) : Decidable (Covered cfg) := inferInstanceAs (Decidable (_ ∧ _ ∧ _ ∧ _))

/-- What is recorded between start and stop. -/
theorem recorded_run (cfg : Cfg) (hcov : Covered cfg) (es : List Ev) (hq : Quiet es) (s : St) (t : Tx)
    (ht : s.tx = some t)
    (hm : ∀ m, s.con.measurement = some m ∨ m ∈ measurements es → KnownLocations m ∧ NoNeutral m) :
    ∃ vs, (run cfg s es).tx = some { values := t.values ++ vs, signed := t.signed } ∧
      SameData (kept cfg vs) (recorded cfg s.con es) := by
  induction es generalizing s t with
  | nil => exact ⟨[], by simp [run, ht], .nil⟩
  | cons e es ih =>
    have hq' : Quiet es := fun e he => hq e (by simp [he])
    have number : ∀ (c : Connector) (m : Measurement) (ctx : Context) (ks : List Measurand),
        (report c m ctx ks).any isSigned = false := by
      intro c m ctx ks
      rw [List.any_eq_false]
      intro x hx
      simp only [report, List.mem_flatMap, samplesFor, List.mem_map] at hx
      obtain ⟨_, _, _, _, _, _, rfl⟩ := hx
      simp [isSigned]
    cases e with
    | measured m =>
      obtain ⟨vs, h1, h2⟩ := ih hq' { s with con := { s.con with measurement := some m } } t ht (by
        rintro m' (h | h)
        · simp only [Option.some.injEq] at h
          exact hm m' (.inr (by simp [measurements, h]))
        · exact hm m' (.inr (by simp [measurements, h])))
      exact ⟨vs, h1, h2⟩
    | offered a p =>
      obtain ⟨vs, h1, h2⟩ := ih hq'
        { s with
          con := { s.con with
            maxCurrent := a
            maxPower := p } } t ht hm
      exact ⟨vs, h1, h2⟩
    | start x => exact absurd rfl ((hq _ (by simp)).1 x)
    | stop x => exact absurd rfl ((hq _ (by simp)).2 x)
    | sample =>
      cases hc : s.con.measurement with
      | none =>
        obtain ⟨vs, h1, h2⟩ := ih hq' s t ht hm
        refine ⟨vs, ?_, ?_⟩
        · rw [run_cons]; simpa [step, ht, latest, hc, fire] using h1
        · simpa [recorded, hc] using h2
      | some m =>
        obtain ⟨hl, hn⟩ := hm m (.inl hc)
        have hstep : (step cfg s .sample).1 = record s ⟨m.time, report s.con m .periodic cfg.sampled⟩ := by
          simp only [step, ht]
          rw [latest_eq _ m hc _ _ _ hcov.1.1 hcov.1.2 hl hn]
          rfl
        obtain ⟨vs, h1, h2⟩ := ih hq' (record s ⟨m.time, report s.con m .periodic cfg.sampled⟩)
          (addValue t ⟨m.time, report s.con m .periodic cfg.sampled⟩) (by simp [record, ht]) hm
        refine ⟨⟨m.time, report s.con m .periodic cfg.sampled⟩ :: vs, ?_, ?_⟩
        · rw [run_cons, hstep, h1]; simp [addValue, number]
        · simp only [recorded, hc]
          rw [show (⟨m.time, report s.con m .periodic cfg.sampled⟩ : MeterValue) :: vs =
            [⟨m.time, report s.con m .periodic cfg.sampled⟩] ++ vs from rfl, kept_append]
          refine SameData.append (.cons ⟨rfl, ?_⟩ .nil) h2
          exact keep_report cfg s.con m .periodic cfg.sampled cfg.stopSampled hcov.2.2.1 (fun k => by simp)
    | aligned =>
      cases hc : s.con.measurement with
      | none =>
        obtain ⟨vs, h1, h2⟩ := ih hq' s t ht hm
        refine ⟨vs, ?_, ?_⟩
        · rw [run_cons]; simpa [step, ht, latest, hc, fire] using h1
        · simpa [recorded, hc] using h2
      | some m =>
        obtain ⟨hl, hn⟩ := hm m (.inl hc)
        have hstep : (step cfg s .aligned).1 = record s ⟨m.time, report s.con m .clock cfg.aligned⟩ := by
          simp only [step]
          rw [latest_eq _ m hc _ _ _ hcov.2.1.1 hcov.2.1.2 hl hn]
          rfl
        obtain ⟨vs, h1, h2⟩ := ih hq' (record s ⟨m.time, report s.con m .clock cfg.aligned⟩)
          (addValue t ⟨m.time, report s.con m .clock cfg.aligned⟩) (by simp [record, ht]) hm
        refine ⟨⟨m.time, report s.con m .clock cfg.aligned⟩ :: vs, ?_, ?_⟩
        · rw [run_cons, hstep, h1]; simp [addValue, number]
        · simp only [recorded, hc]
          rw [show (⟨m.time, report s.con m .clock cfg.aligned⟩ : MeterValue) :: vs =
            [⟨m.time, report s.con m .clock cfg.aligned⟩] ++ vs from rfl, kept_append]
          refine SameData.append (.cons ⟨rfl, ?_⟩ .nil) h2
          exact keep_report cfg s.con m .clock cfg.aligned cfg.stopAligned hcov.2.2.2 (fun k => by simp)

theorem recorded_empty (cfg : Cfg) (h1 : cfg.stopSampled = []) (h2 : cfg.stopAligned = []) (c : Connector)
    (es : List Ev) : (recorded cfg c es).filter (fun v => !v.samples.isEmpty) = [] := by
  induction es generalizing c with
  | nil => rfl
  | cons e es ih =>
    cases e with
    | measured m => exact ih _
    | offered a p => exact ih _
    | start x => exact ih _
    | stop x => exact ih _
    | sample =>
      simp only [recorded, List.filter_append, ih, List.append_nil]
      cases c.measurement <;> simp [h1, report]
    | aligned =>
      simp only [recorded, List.filter_append, ih, List.append_nil]
      cases c.measurement <;> simp [h2, report]

/-- C164: after every history, StopTransaction.req tells for the transaction exactly the signed values and, for the sample
times and the clock-aligned times since its start, the readings that StopTxnSampledData and StopTxnAlignedData ask for. -/
theorem C164_stop_partial (cfg : Cfg) (hcov : Covered cfg) (pre mid : List Ev) (hq : Quiet mid)
    (begin ending : Option (Int × List Char))
    (hm : ∀ m ∈ measurements pre ++ measurements mid, KnownLocations m ∧ NoNeutral m) :
    ∃ d, (step cfg (run cfg {} (pre ++ .start begin :: mid)) (.stop ending)).2 = [.stopTransaction d] ∧
      SameData d (transactionData cfg (known {} pre) begin ending mid) := by
  have hcon : (step cfg (run cfg {} pre) (.start begin)).1.con = known {} pre := by
    rw [← run_con cfg {} pre]; rfl
  obtain ⟨vs, h1, h2⟩ := recorded_run cfg hcov mid hq (step cfg (run cfg {} pre) (.start begin)).1
    (addSigned .begin begin {}) rfl (by
      intro m h
      rw [hcon] at h
      rcases h with h | h
      · rcases known_measurement {} pre m h with h | h
        · cases h
        · exact hm m (by simp [h])
      · exact hm m (by simp [h]))
  rw [hcon] at h2
  rw [run_append, run_cons]
  simp only [step] at h1 ⊢
  simp only [h1]
  refine ⟨_, rfl, ?_⟩
  have keepSigned : ∀ ctx x, kept cfg [signedValue ctx x] = [signedValue ctx x] := by
    intro ctx x; simp [kept, signedValue, keep]
  have main : SameData
      (((addSigned .ending ending
        { values := (addSigned .begin begin {}).values ++ vs, signed := (addSigned .begin begin {}).signed }).values
          |> kept cfg).filter (fun v => !v.samples.isEmpty))
      (transactionData cfg (known {} pre) begin ending mid) := by
    refine SameData.filter ?_
    have hb : kept cfg (addSigned .begin begin {}).values = signedData .begin begin := by
      cases begin with
      | none => rfl
      | some x => simpa [addSigned, addValue, signedData, signedValue] using keepSigned .begin x
    have he : (addSigned .ending ending
        { values := (addSigned .begin begin {}).values ++ vs, signed := (addSigned .begin begin {}).signed }).values =
          (addSigned .begin begin {}).values ++ vs ++ signedData .ending ending := by
      cases ending with
      | none => simp [addSigned, signedData]
      | some x => simp [addSigned, addValue, signedData, signedValue]
    have hk : kept cfg (signedData .ending ending) = signedData .ending ending := by
      cases ending with
      | none => rfl
      | some x => exact keepSigned .ending x
    rw [he, kept_append, kept_append, hb, hk]
    exact ((SameData.refl _).append h2).append (SameData.refl _)
  unfold stopData
  split
  · exact main
  · rename_i hno
    simp only [Bool.or_eq_true, Bool.not_eq_true', not_or, Bool.not_eq_false, List.isEmpty_iff] at hno
    obtain ⟨⟨ha, hb⟩, hs⟩ := hno
    cases begin with
    | some x => cases ending <;> simp [addSigned, addValue, signedValue, isSigned] at hs
    | none =>
      cases ending with
      | some x => simp [addSigned, addValue, signedValue, isSigned] at hs
      | none =>
        simp only [transactionData, signedData, List.nil_append, List.append_nil]
        rw [recorded_empty cfg ha hb]
        exact .nil

/-- The hypotheses of `C164_stop_partial` hold for a transaction with a measurement, a sample and a clock-aligned value. -/
example : Covered aCfg ∧ Quiet [.measured aMeasurement, .sample, .aligned] ∧
    ∀ m ∈ measurements [.offered 16 11000] ++ measurements [.measured aMeasurement, .sample, .aligned],
      KnownLocations m ∧ NoNeutral m := by
  refine ⟨by decide, ?_, ?_⟩
  · intro e he; simp at he; rcases he with rfl | rfl | rfl <;> simp
  · intro m hm; simp [measurements] at hm; subst hm; exact aMeasurement_ok

/-- The data of that transaction, which started with a signed value. -/
example : (step aCfg (run aCfg {} [.start (some (90, ['s'])), .measured aMeasurement, .sample, .aligned])
    (.stop none)).2 =
    [.stopTransaction
      [⟨90, [{ content := .signed ['s'], context := .begin }]⟩,
       ⟨100, [⟨.number 5000, .periodic, some .energyActiveImportRegister, none, some .outlet, some .wh⟩,
         ⟨.number 2000, .periodic, some .energyActiveImportRegister, some .l1, some .outlet, some .wh⟩,
         ⟨.number 1500, .periodic, some .energyActiveImportRegister, some .l2, some .outlet, some .wh⟩,
         ⟨.number 1500, .periodic, some .energyActiveImportRegister, some .l3, some .outlet, some .wh⟩]⟩,
       ⟨100, [⟨.number 40, .clock, some .temperature, none, some .cable, some .celsius⟩,
         ⟨.number 35, .clock, some .temperature, none, none, some .celsius⟩]⟩]] := by decide

/-- C164 fails: a measurand that is only in StopTxnSampledData and not in MeterValuesSampledData is never told, although
it was measured. -/
theorem C164_stop_violated : ∃ (cfg : Cfg) (mid : List Ev), ProperKey cfg cfg.sampled ∧ ProperKey cfg cfg.aligned ∧
    ProperKey cfg cfg.stopSampled ∧ ProperKey cfg cfg.stopAligned ∧ Quiet mid ∧
    (∀ m ∈ measurements mid, KnownLocations m ∧ NoNeutral m) ∧
    transactionData cfg {} none none mid ≠ [] ∧
    (step cfg (run cfg {} (.start none :: mid)) (.stop none)).2 = [.stopTransaction []] := by
  refine ⟨⟨[.energyActiveImportRegister, .soc], [.soc], [], [.energyActiveImportRegister], []⟩,
    [.measured aMeasurement, .sample], by decide, by decide, by decide, by decide, ?_, ?_, by decide, by decide⟩
  · intro e he; simp at he; rcases he with rfl | rfl <;> simp
  · intro m hm; simp [measurements] at hm; subst hm; exact aMeasurement_ok

end Verif.Met16
