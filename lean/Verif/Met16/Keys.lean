import Verif.Conf16.Model
import Verif.Met16.Theorems

/-!
# The texts of the measurand keys (OCPP 1.6): C262

Which texts the charge point accepts for MeterValuesSampledData, MeterValuesAlignedData, StopTxnSampledData and
StopTxnAlignedData, and which readings it then asks for: `init_supported_measurands`, `csv_to_measurand_with_phase_vector`,
`validate_measurands`, `measurands_supported`, `set…Data` and the constructor
(`lib/ocpp/v16/charge_point_configuration.cpp` l.143-149, 263-305, 1024-1136, 1520-1527, 1564-1571, 1739-1746, 1780-1787),
`string_to_measurand` (`lib/ocpp/v16/ocpp_enums.cpp` l.1069-1138).

Simplified: a text is a list of characters; the other checks of the constructor and the writing of the file with the user
configuration are in `Verif.Conf16`.
-/

namespace Verif.Met16.Texts

open Verif.Conf16 (Text splitAll splitOn pieces)

/-! ## The code -/

/-- `string_to_measurand` (`ocpp_enums.cpp` l.1069-1138): the comparisons in the order of the code. -/
def table : List (Text × Measurand) :=
  [("Energy.Active.Export.Register".toList, .energyActiveExportRegister),
   ("Energy.Active.Import.Register".toList, .energyActiveImportRegister),
   ("Energy.Reactive.Export.Register".toList, .energyReactiveExportRegister),
   ("Energy.Reactive.Import.Register".toList, .energyReactiveImportRegister),
   ("Energy.Active.Export.Interval".toList, .energyActiveExportInterval),
   ("Energy.Active.Import.Interval".toList, .energyActiveImportInterval),
   ("Energy.Reactive.Export.Interval".toList, .energyReactiveExportInterval),
   ("Energy.Reactive.Import.Interval".toList, .energyReactiveImportInterval),
   ("Power.Active.Export".toList, .powerActiveExport),
   ("Power.Active.Import".toList, .powerActiveImport),
   ("Power.Offered".toList, .powerOffered),
   ("Power.Reactive.Export".toList, .powerReactiveExport),
   ("Power.Reactive.Import".toList, .powerReactiveImport),
   ("Power.Factor".toList, .powerFactor),
   ("Current.Import".toList, .currentImport),
   ("Current.Export".toList, .currentExport),
   ("Current.Offered".toList, .currentOffered),
   ("Voltage".toList, .voltage),
   ("Frequency".toList, .frequency),
   ("Temperature".toList, .temperature),
   ("SoC".toList, .soc),
   ("RPM".toList, .rpm)]

/-- `string_to_measurand`; `none`: it throws `StringToEnumException`. -/
def readMeasurand (t : Text) : Option Measurand := table.lookup t

/-- Every element is converted; the first one that cannot be throws. -/
def readAll : List Text → Option (List Measurand)
  | [] => some []
  | t :: r =>
    match readMeasurand t, readAll r with
    | some m, some l => some (m :: l)
    | _, _ => none

/-- `init_supported_measurands` (l.263-305): the text is split with `split_string`; `none`: it throws. -/
def supportedOf (t : Text) : Option (List Measurand) := readAll (pieces ',' t)

/-- `csv_to_measurand_with_phase_vector` (l.1024-1066); `none`: it throws. -/
def csvToWanted (supported : List Measurand) (t : Text) : Option (List Wanted) :=
  if t.isEmpty then some []
  else (readAll (splitAll [] t)).map (wantedOf supported)

/-- One turn of the second loop of `measurands_supported` (l.1122-1134). -/
def wantedOk (supported : List Measurand) (w : Wanted) : Bool :=
  supported.contains w.measurand &&
    (match w.phase with
    | some p => (phasesOf w.measurand).contains p
    | none => true)

/-- `measurands_supported` (l.1104-1136); `none`: it throws. -/
def measurandsSupported (supported : List Measurand) (t : Text) : Option Bool :=
  if t.isEmpty then some true
  else if (splitAll [] t).all (fun x => (readMeasurand x).isSome) then
    (csvToWanted supported t).map (fun ws => ws.all (wantedOk supported))
  else some false

/-- The four keys. -/
inductive Key
  | sampled | aligned | stopSampled | stopAligned
deriving DecidableEq, Repr

/-- The configuration: SupportedMeasurands as read, and the texts of the four keys. -/
structure Conf where
  supported : List Measurand
  text : Key → Text

/-- `validate_measurands` (l.1069-1084); an exception leaves the constructor as a refusal does. -/
def validateMeasurands (supported : List Measurand) (text : Key → Text) : Bool :=
  [Key.aligned, Key.sampled, Key.stopAligned, Key.stopSampled].all
    (fun k => measurandsSupported supported (text k) == some true)

/-- The constructor (l.143-149); `none`: it throws. -/
def construct (supportedText : Text) (text : Key → Text) : Option Conf :=
  match supportedOf supportedText with
  | none => none
  | some sup => if validateMeasurands sup text then some ⟨sup, text⟩ else none

/-- `setMeterValuesAlignedData`, `setMeterValuesSampledData`, `setStopTxnAlignedData`, `setStopTxnSampledData` (l.1520-1527,
1564-1571, 1739-1746, 1780-1787): the configuration and whether the change is accepted; `none`: an exception. -/
def setKey (c : Conf) (k : Key) (t : Text) : Option (Conf × Bool) :=
  match measurandsSupported c.supported t with
  | none => none
  | some false => some (c, false)
  | some true => some ({ c with text := fun j => if j = k then t else c.text j }, true)

/-- `get…DataVector` (l.1536-1538, 1580-1582, 1752-1754, 1794-1796). -/
def wantedBy (c : Conf) (k : Key) : Option (List Wanted) := csvToWanted c.supported (c.text k)

/-! ## Specification -/

/-- The name of a measurand in OCPP 1.6. -/
def name : Measurand → String
  | .energyActiveExportRegister => "Energy.Active.Export.Register"
  | .energyActiveImportRegister => "Energy.Active.Import.Register"
  | .energyReactiveExportRegister => "Energy.Reactive.Export.Register"
  | .energyReactiveImportRegister => "Energy.Reactive.Import.Register"
  | .energyActiveExportInterval => "Energy.Active.Export.Interval"
  | .energyActiveImportInterval => "Energy.Active.Import.Interval"
  | .energyReactiveExportInterval => "Energy.Reactive.Export.Interval"
  | .energyReactiveImportInterval => "Energy.Reactive.Import.Interval"
  | .powerActiveExport => "Power.Active.Export"
  | .powerActiveImport => "Power.Active.Import"
  | .powerOffered => "Power.Offered"
  | .powerReactiveExport => "Power.Reactive.Export"
  | .powerReactiveImport => "Power.Reactive.Import"
  | .powerFactor => "Power.Factor"
  | .currentImport => "Current.Import"
  | .currentExport => "Current.Export"
  | .currentOffered => "Current.Offered"
  | .voltage => "Voltage"
  | .frequency => "Frequency"
  | .temperature => "Temperature"
  | .soc => "SoC"
  | .rpm => "RPM"

/-- The names of the measurands, separated by commas. -/
def csv (ms : List Measurand) : Text := List.intercalate [','] (ms.map (fun m => (name m).toList))

/-- A reading of the measurand for the phase makes sense for this charge point: the electric ones for each of the three phases,
the currents for the neutral conductor as well. -/
def HasPhase (m : Measurand) (p : Phase) : Prop :=
  (p = .l1 ∨ p = .l2 ∨ p = .l3) ∧
      m ∉ [.powerFactor, .currentOffered, .powerOffered, .temperature, .soc, .rpm] ∨
    p = .n ∧ (m = .currentImport ∨ m = .currentExport)

/-! ## Splitting and joining -/

theorem splitAll_ne (acc t : Text) : splitAll acc t ≠ [] := by
  induction t generalizing acc with
  | nil => simp [splitAll]
  | cons x r ih =>
    rw [splitAll]
    split
    · simp
    · exact ih _

theorem join_cons (a : Text) {l : List Text} (h : l ≠ []) :
    List.intercalate [','] (a :: l) = a ++ ',' :: List.intercalate [','] l := by
  cases l with
  | nil => exact absurd rfl h
  | cons b r => simp [List.intercalate, List.intersperse]

theorem join_split (acc t : Text) : List.intercalate [','] (splitAll acc t) = acc ++ t := by
  induction t generalizing acc with
  | nil => simp [splitAll, List.intercalate]
  | cons x r ih =>
    rw [splitAll]
    split
    · next h => rw [join_cons _ (splitAll_ne _ _), ih, h]; simp
    · rw [ih]; simp

theorem split_plain (acc a : Text) (h : ',' ∉ a) : splitAll acc a = [acc ++ a] := by
  induction a generalizing acc with
  | nil => simp [splitAll]
  | cons x r ih =>
    simp only [List.mem_cons, not_or] at h
    rw [splitAll, if_neg (fun e => h.1 e.symm), ih _ h.2]; simp

theorem split_comma (acc a r : Text) (h : ',' ∉ a) : splitAll acc (a ++ ',' :: r) = (acc ++ a) :: splitAll [] r := by
  induction a generalizing acc with
  | nil => simp [splitAll]
  | cons x s ih =>
    simp only [List.mem_cons, not_or] at h
    rw [List.cons_append, splitAll, if_neg (fun e => h.1 e.symm), ih _ h.2]; simp

theorem split_join : ∀ (l : List Text), l ≠ [] → (∀ a ∈ l, ',' ∉ a) → splitAll [] (List.intercalate [','] l) = l
  | [], h, _ => absurd rfl h
  | [a], _, h => by
    have := split_plain [] a (h a (by simp))
    simpa [List.intercalate] using this
  | a :: b :: r, _, h => by
    rw [join_cons a (by simp), split_comma _ _ _ (h a (by simp)),
      split_join (b :: r) (by simp) (fun x hx => h x (by simp [hx]))]
    simp

theorem splitOn_plain (acc a : Text) (h : ',' ∉ a) (hn : acc ++ a ≠ []) : splitOn ',' acc a = [acc ++ a] := by
  induction a generalizing acc with
  | nil =>
    have : acc ≠ [] := by simpa using hn
    simp [splitOn, this]
  | cons x r ih =>
    simp only [List.mem_cons, not_or] at h
    rw [splitOn, if_neg (fun e => h.1 e.symm), ih _ h.2 (by simp)]; simp

theorem splitOn_comma (acc a r : Text) (h : ',' ∉ a) :
    splitOn ',' acc (a ++ ',' :: r) = (acc ++ a) :: splitOn ',' [] r := by
  induction a generalizing acc with
  | nil => simp [splitOn]
  | cons x s ih =>
    simp only [List.mem_cons, not_or] at h
    rw [List.cons_append, splitOn, if_neg (fun e => h.1 e.symm), ih _ h.2]; simp

theorem splitOn_join : ∀ (l : List Text), (∀ a ∈ l, ',' ∉ a ∧ a ≠ []) →
    splitOn ',' [] (List.intercalate [','] l) = l
  | [], _ => by simp [List.intercalate, splitOn]
  | [a], h => by
    have := splitOn_plain [] a (h a (by simp)).1 (by simpa using (h a (by simp)).2)
    simpa [List.intercalate] using this
  | a :: b :: r, h => by
    rw [join_cons a (by simp), splitOn_comma _ _ _ (h a (by simp)).1,
      splitOn_join (b :: r) (fun x hx => h x (by simp [hx]))]
    simp

/-- What `split_string` does to a text: the pieces, joined, are the text or the text without its last comma. -/
theorem join_splitOn (acc t : Text) : acc ++ t = List.intercalate [','] (splitOn ',' acc t) ∨
    splitOn ',' acc t ≠ [] ∧ acc ++ t = List.intercalate [','] (splitOn ',' acc t) ++ [','] := by
  induction t generalizing acc with
  | nil =>
    left
    by_cases h : acc = []
    · simp [splitOn, h, List.intercalate]
    · simp [splitOn, h, List.intercalate]
  | cons x r ih =>
    rw [splitOn]
    split
    · next h =>
      by_cases he : splitOn ',' [] r = []
      · have h0 := ih []
        rw [he] at h0
        have hr : r = [] := by
          rcases h0 with h0 | h0
          · simpa [List.intercalate] using h0
          · exact absurd rfl h0.1
        right
        rw [he, hr, h]
        simp [List.intercalate]
      · rw [join_cons _ he, h]
        rcases ih [] with h0 | h0
        · left
          simp only [List.nil_append] at h0
          rw [← h0]
        · right
          refine ⟨by simp, ?_⟩
          have h1 := h0.2
          simp only [List.nil_append] at h1
          rw [List.append_assoc, List.cons_append, ← h1]
    · rcases ih (acc ++ [x]) with h0 | h0
      · left; simpa using h0
      · right; exact ⟨h0.1, by simpa using h0.2⟩

/-! ## Names -/

theorem read_name (m : Measurand) : readMeasurand (name m).toList = some m := by cases m <;> decide

theorem name_of_read {t : Text} {m : Measurand} (h : readMeasurand t = some m) : t = (name m).toList := by
  have : ∀ p ∈ table, p.1 = (name p.2).toList := by decide
  unfold readMeasurand at h
  have hm : (t, m) ∈ table := by
    revert h
    generalize table = l
    induction l with
    | nil => simp
    | cons p l ih =>
      obtain ⟨a, b⟩ := p
      intro h
      rw [List.lookup_cons] at h
      split at h
      · next e =>
        simp only [Option.some.injEq] at h
        have : t = a := by simpa using e
        simp [this, h]
      · exact List.mem_cons_of_mem _ (ih h)
  exact this _ hm

theorem name_plain (m : Measurand) : ',' ∉ (name m).toList ∧ (name m).toList ≠ [] := by cases m <;> decide

theorem readAll_iff (l : List Text) (ms : List Measurand) :
    readAll l = some ms ↔ l = ms.map (fun m => (name m).toList) := by
  induction l generalizing ms with
  | nil => cases ms <;> simp [readAll]
  | cons t r ih =>
    rw [readAll]
    constructor
    · intro h
      cases h1 : readMeasurand t with
      | none => simp [h1] at h
      | some m =>
        cases h2 : readAll r with
        | none => simp [h1, h2] at h
        | some l =>
          simp only [h1, h2, Option.some.injEq] at h
          subst h
          rw [List.map_cons, ← (ih l).mp h2, ← name_of_read h1]
    · intro h
      cases ms with
      | nil => simp at h
      | cons m ms =>
        simp only [List.map_cons, List.cons.injEq] at h
        rw [h.1, read_name, (ih ms).mpr h.2]

theorem names_plain {ms : List Measurand} : ∀ a ∈ ms.map (fun m => (name m).toList), ',' ∉ a ∧ a ≠ [] := by
  intro a ha
  obtain ⟨m, _, rfl⟩ := List.mem_map.mp ha
  exact name_plain m

theorem readAll_isSome (l : List Text) : (readAll l).isSome = l.all (fun x => (readMeasurand x).isSome) := by
  induction l with
  | nil => rfl
  | cons t r ih =>
    rw [readAll, List.all_cons, ← ih]
    cases readMeasurand t <;> cases readAll r <;> rfl

theorem readSplit_iff {t : Text} {ms : List Measurand} (ht : t ≠ []) :
    readAll (splitAll [] t) = some ms ↔ t = csv ms := by
  rw [readAll_iff]
  constructor
  · intro h
    have := join_split [] t
    rw [h] at this
    exact this.symm
  · intro h
    have hm : ms ≠ [] := by
      rintro rfl
      exact ht (by simpa [csv, List.intercalate] using h)
    rw [h, csv, split_join _ (by simpa using hm) (fun a ha => (names_plain a ha).1)]

theorem csv_nil_iff (ms : List Measurand) : csv ms = [] ↔ ms = [] := by
  constructor
  · intro h
    cases ms with
    | nil => rfl
    | cons m r =>
      exfalso
      have hn := (name_plain m).2
      cases r with
      | nil => simp [csv, List.intercalate] at h; exact hn (by simpa using h)
      | cons b r =>
        unfold csv at h
        rw [List.map_cons, join_cons _ (by simp)] at h
        simp at h
  · rintro rfl; simp [csv, List.intercalate]

theorem csvToWanted_iff (sup : List Measurand) (t : Text) (ws : List Wanted) :
    csvToWanted sup t = some ws ↔ ∃ ms, t = csv ms ∧ ws = wantedOf sup ms := by
  unfold csvToWanted
  by_cases ht : t = []
  · subst ht
    simp only [List.isEmpty_nil, if_true, Option.some.injEq]
    constructor
    · rintro rfl; exact ⟨[], by simp [csv, List.intercalate], rfl⟩
    · rintro ⟨ms, h1, rfl⟩
      rw [(csv_nil_iff ms).mp h1.symm]; rfl
  · rw [if_neg (by simpa using ht)]
    simp only [Option.map_eq_some_iff, readSplit_iff ht]
    constructor
    · rintro ⟨ms, h, rfl⟩; exact ⟨ms, h, rfl⟩
    · rintro ⟨ms, h, rfl⟩; exact ⟨ms, h, rfl⟩

/-! ## The measurands asked for -/

theorem mem_addNew (acc : List Wanted) (w x : Wanted) : x ∈ addNew acc w ↔ x ∈ acc ∨ x = w := by
  unfold addNew
  split
  · next h =>
    constructor
    · exact Or.inl
    · rintro (h1 | rfl)
      · exact h1
      · simpa using h
  · simp

theorem mem_foldNew (m : Measurand) (ps : List Phase) (acc : List Wanted) (x : Wanted) :
    x ∈ ps.foldl (fun acc p => addNew acc ⟨m, some p⟩) acc ↔ x ∈ acc ∨ ∃ p ∈ ps, x = ⟨m, some p⟩ := by
  induction ps generalizing acc with
  | nil => simp
  | cons p r ih =>
    rw [List.foldl_cons, ih, mem_addNew]
    simp only [List.mem_cons, exists_eq_or_imp, or_assoc]

theorem mem_addMeasurand (sup : List Measurand) (acc : List Wanted) (m : Measurand) (x : Wanted) :
    x ∈ addMeasurand sup acc m ↔ x ∈ acc ∨ x = ⟨m, none⟩ ∨ m ∈ sup ∧ ∃ p ∈ phasesOf m, x = ⟨m, some p⟩ := by
  unfold addMeasurand
  by_cases h : m ∈ sup
  · by_cases h2 : phasesOf m = []
    · simp [h2, mem_addNew]
    · simp [h, h2, mem_foldNew, or_assoc]
  · simp [h, mem_addNew]

theorem mem_wantedOf (sup ms : List Measurand) (x : Wanted) :
    x ∈ wantedOf sup ms ↔ ∃ m ∈ ms, x = ⟨m, none⟩ ∨ m ∈ sup ∧ ∃ p ∈ phasesOf m, x = ⟨m, some p⟩ := by
  unfold wantedOf
  have : ∀ acc : List Wanted, x ∈ ms.foldl (addMeasurand sup) acc ↔
      x ∈ acc ∨ ∃ m ∈ ms, x = ⟨m, none⟩ ∨ m ∈ sup ∧ ∃ p ∈ phasesOf m, x = ⟨m, some p⟩ := by
    induction ms with
    | nil => simp
    | cons m r ih =>
      intro acc
      rw [List.foldl_cons, ih, mem_addMeasurand]
      simp only [List.mem_cons, exists_eq_or_imp, or_assoc]
  simpa using this []

theorem mem_phasesOf (m : Measurand) (p : Phase) : p ∈ phasesOf m ↔ HasPhase m p := by
  cases m <;> cases p <;> simp [phasesOf, HasPhase]

theorem all_ok_iff (sup ms : List Measurand) : (wantedOf sup ms).all (wantedOk sup) = true ↔ ∀ m ∈ ms, m ∈ sup := by
  rw [List.all_eq_true]
  constructor
  · intro h m hm
    have := h ⟨m, none⟩ ((mem_wantedOf _ _ _).mpr ⟨m, hm, Or.inl rfl⟩)
    simpa [wantedOk] using this
  · intro h w hw
    obtain ⟨m, hm, rfl | ⟨h1, p, hp, rfl⟩⟩ := (mem_wantedOf _ _ _).mp hw
    · simp [wantedOk, h m hm]
    · simp [wantedOk, h1, hp]

theorem supported_iff (sup : List Measurand) (t : Text) :
    measurandsSupported sup t = some true ↔ ∃ ms, t = csv ms ∧ ∀ m ∈ ms, m ∈ sup := by
  unfold measurandsSupported
  by_cases ht : t = []
  · subst ht
    simp only [List.isEmpty_nil, if_true, true_iff]
    exact ⟨[], by simp [csv, List.intercalate], by simp⟩
  · rw [if_neg (by simpa using ht), ← readAll_isSome]
    cases hr : readAll (splitAll [] t) with
    | none =>
      simp only [Option.isSome_none, Bool.false_eq_true, if_false, Option.some.injEq, false_iff]
      rintro ⟨ms, h, _⟩
      rw [(readSplit_iff ht).mpr h] at hr
      simp at hr
    | some l =>
      have hl := (readSplit_iff ht).mp hr
      simp only [Option.isSome_some, if_true, csvToWanted, List.isEmpty_iff, ht, if_false, hr, Option.map_some,
        Option.some.injEq, all_ok_iff]
      constructor
      · intro h; exact ⟨l, hl, h⟩
      · rintro ⟨ms, h1, h2⟩
        have := (readSplit_iff ht).mpr h1
        rw [hr, Option.some.injEq] at this
        rw [this]; exact h2

theorem supported_total (sup : List Measurand) (t : Text) : measurandsSupported sup t ≠ none := by
  unfold measurandsSupported
  by_cases ht : t = []
  · simp [ht]
  · rw [if_neg (by simpa using ht), ← readAll_isSome]
    cases hr : readAll (splitAll [] t) with
    | none => simp
    | some l => simp [csvToWanted, ht, hr]

/-! ## C262 -/

/-- **C262 (ChangeConfiguration).** A text for one of the four keys is accepted exactly if it is a list of names of supported
measurands, separated by commas (or empty); it is then the value of that key and the other keys are as they were.  Any other
text is refused and changes nothing.  No text makes it throw. -/
theorem C262_accepted (c : Conf) (k : Key) (t : Text) :
    ∃ c' ok, setKey c k t = some (c', ok) ∧
      (ok = true ↔ ∃ ms, t = csv ms ∧ ∀ m ∈ ms, m ∈ c.supported) ∧
      c'.supported = c.supported ∧ (∀ j, j ≠ k → c'.text j = c.text j) ∧
      (ok = true → c'.text k = t) ∧ (ok = false → c' = c) := by
  unfold setKey
  have hi := supported_iff c.supported t
  cases h : measurandsSupported c.supported t with
  | none => exact absurd h (supported_total _ _)
  | some b =>
    rw [h, Option.some.injEq] at hi
    cases b with
    | false => exact ⟨c, false, rfl, hi, rfl, fun _ _ => rfl, by simp, fun _ => rfl⟩
    | true =>
      exact ⟨_, true, rfl, hi, rfl, fun j hj => by simp [hj], fun _ => by simp, by simp⟩

/-- **C262 (start).** The charge point is constructed exactly if SupportedMeasurands is a list of names of measurands separated
by commas (one comma may follow the last name) and each of the four keys is a list of names of these measurands. -/
theorem C262_start (s : Text) (text : Key → Text) :
    (∃ c, construct s text = some c) ↔
      ∃ sup, (s = csv sup ∨ sup ≠ [] ∧ s = csv sup ++ [',']) ∧
        ∀ k, ∃ ms, text k = csv ms ∧ ∀ m ∈ ms, m ∈ sup := by
  have hv : ∀ sup, validateMeasurands sup text = true ↔ ∀ k, ∃ ms, text k = csv ms ∧ ∀ m ∈ ms, m ∈ sup := by
    intro sup
    simp only [validateMeasurands, List.all_cons, List.all_nil, Bool.and_true, Bool.and_eq_true, beq_iff_eq,
      supported_iff]
    constructor
    · rintro ⟨h1, h2, h3, h4⟩ k
      cases k <;> assumption
    · intro h
      exact ⟨h _, h _, h _, h _⟩
  have hs : ∀ sup, supportedOf s = some sup ↔ (s = csv sup ∨ sup ≠ [] ∧ s = csv sup ++ [',']) := by
    intro sup
    unfold supportedOf pieces
    rw [readAll_iff]
    constructor
    · intro h
      have := join_splitOn [] s
      rw [h] at this
      simpa [csv] using this
    · rintro (h | ⟨hn, h⟩)
      · rw [h, csv, splitOn_join _ names_plain]
      · rw [h]
        have key : ∀ l : List Text, l ≠ [] → (∀ a ∈ l, ',' ∉ a ∧ a ≠ []) →
            splitOn ',' [] (List.intercalate [','] l ++ [',']) = l := by
          intro l
          induction l with
          | nil => intro h; exact absurd rfl h
          | cons a r ih =>
            intro _ hp
            cases r with
            | nil =>
              have := splitOn_comma [] a [] (hp a (by simp)).1
              simpa [List.intercalate, splitOn] using this
            | cons b r =>
              rw [join_cons a (by simp), List.append_assoc, List.cons_append,
                splitOn_comma _ _ _ (hp a (by simp)).1, ih (by simp) (fun x hx => hp x (by simp [hx]))]
              simp
        exact key _ (by simpa using hn) names_plain
  unfold construct
  constructor
  · rintro ⟨c, h⟩
    cases h1 : supportedOf s with
    | none => simp [h1] at h
    | some sup =>
      refine ⟨sup, (hs sup).mp h1, (hv sup).mp ?_⟩
      cases hn : validateMeasurands sup text with
      | true => rfl
      | false => simp [h1, hn] at h
  · rintro ⟨sup, h1, h2⟩
    rw [(hs sup).mpr h1]
    simp [(hv sup).mpr h2]

/-- What the CSMS has done to the keys since the charge point was constructed. -/
def changes (c : Conf) : List (Key × Text) → Option Conf
  | [] => some c
  | (k, t) :: r =>
    match setKey c k t with
    | none => none
    | some (c', _) => changes c' r

theorem changes_inv {c : Conf} (h : ∀ k, ∃ ms, c.text k = csv ms ∧ ∀ m ∈ ms, m ∈ c.supported) (l : List (Key × Text)) :
    ∃ c', changes c l = some c' ∧ c'.supported = c.supported ∧
      ∀ k, ∃ ms, c'.text k = csv ms ∧ ∀ m ∈ ms, m ∈ c'.supported := by
  induction l generalizing c with
  | nil => exact ⟨c, rfl, rfl, h⟩
  | cons p r ih =>
    obtain ⟨k, t⟩ := p
    obtain ⟨c1, ok, h1, h2, h3, h4, h5, h6⟩ := C262_accepted c k t
    rw [changes, h1]
    have : ∀ j, ∃ ms, c1.text j = csv ms ∧ ∀ m ∈ ms, m ∈ c1.supported := by
      intro j
      rw [h3]
      cases ok with
      | false => rw [h6 rfl]; exact h j
      | true =>
        by_cases hj : j = k
        · subst hj
          rw [h5 rfl]
          exact h2.mp rfl
        · rw [h4 j hj]; exact h j
    obtain ⟨c', e1, e2, e3⟩ := ih this
    exact ⟨c', e1, e2.trans h3, e3⟩

/-- **C262 (restart).** Whatever the CSMS has tried to write, a charge point that is constructed again with the values it then
had is constructed. -/
theorem C262_restart (s : Text) (text : Key → Text) (c : Conf) (hc : construct s text = some c) (l : List (Key × Text)) :
    ∃ c', changes c l = some c' ∧ construct s c'.text = some c' := by
  have h0 : supportedOf s = some c.supported ∧ validateMeasurands c.supported c.text = true := by
    unfold construct at hc
    cases h1 : supportedOf s with
    | none => simp [h1] at hc
    | some sup =>
      rw [h1] at hc
      simp only at hc
      split at hc
      · next h2 => simp only [Option.some.injEq] at hc; subst hc; exact ⟨rfl, h2⟩
      · simp at hc
  have hk : ∀ k, ∃ ms, c.text k = csv ms ∧ ∀ m ∈ ms, m ∈ c.supported := by
    intro k
    have := h0.2
    simp only [validateMeasurands, List.all_cons, List.all_nil, Bool.and_true, Bool.and_eq_true, beq_iff_eq,
      supported_iff] at this
    obtain ⟨h1, h2, h3, h4⟩ := this
    cases k <;> assumption
  obtain ⟨c', e1, e2, e3⟩ := changes_inv hk l
  refine ⟨c', e1, ?_⟩
  have hv : validateMeasurands c'.supported c'.text = true := by
    simp only [validateMeasurands, List.all_cons, List.all_nil, Bool.and_true, Bool.and_eq_true, beq_iff_eq,
      supported_iff]
    exact ⟨e3 _, e3 _, e3 _, e3 _⟩
  unfold construct
  rw [h0.1, ← e2]
  simp [hv]

/-- **C262 (readings).** Once the CSMS has set a key to a list of measurands, the readings asked for are, for each of them and for
no other measurand, the total and each of its phases. -/
theorem C262_asked (c c' : Conf) (k : Key) (ms : List Measurand) (h : setKey c k (csv ms) = some (c', true)) :
    ∃ ws, wantedBy c' k = some ws ∧
      ∀ w, w ∈ ws ↔ w.measurand ∈ ms ∧ ∀ p, w.phase = some p → HasPhase w.measurand p := by
  obtain ⟨c1, ok, h1, h2, h3, h4, h5, h6⟩ := C262_accepted c k (csv ms)
  rw [h] at h1
  simp only [Option.some.injEq, Prod.mk.injEq] at h1
  obtain ⟨rfl, rfl⟩ := h1
  have ht := h5 rfl
  obtain ⟨ms', hm1, hm2⟩ := h2.mp rfl
  have hcw : csvToWanted c'.supported (c'.text k) = some (wantedOf c'.supported ms) :=
    (csvToWanted_iff _ _ _).mpr ⟨ms, ht, rfl⟩
  have hsup : ∀ m ∈ ms, m ∈ c'.supported := by
    rw [h3]
    by_cases he : csv ms = []
    · rw [(csv_nil_iff ms).mp he]; simp
    · have a := (readSplit_iff he (ms := ms)).mpr rfl
      have b := (readSplit_iff he).mpr hm1
      rw [a, Option.some.injEq] at b
      rw [b]; exact hm2
  refine ⟨_, hcw, fun w => ?_⟩
  rw [mem_wantedOf]
  constructor
  · rintro ⟨m, hm, rfl | ⟨_, p, hp, rfl⟩⟩
    · exact ⟨hm, by simp⟩
    · refine ⟨hm, fun q hq => ?_⟩
      simp only [Option.some.injEq] at hq
      subst hq
      exact (mem_phasesOf _ _).mp hp
  · rintro ⟨hm, hp⟩
    obtain ⟨m, ph⟩ := w
    refine ⟨m, hm, ?_⟩
    cases ph with
    | none => exact Or.inl rfl
    | some p => exact Or.inr ⟨hsup m hm, p, (mem_phasesOf _ _).mpr (hp p rfl), rfl⟩

/-- A charge point that supports energy, current, voltage and the state of charge. -/
def demo : Conf := ⟨[.energyActiveImportRegister, .currentImport, .voltage, .soc], fun _ => "Voltage".toList⟩

/-- Two supported measurands are accepted, and so is the empty text; a measurand that is not supported, an unknown one, a
space after the comma and a phase are refused. -/
example :
    (setKey demo .sampled "Current.Import,SoC".toList).map (·.2) = some true ∧
      (setKey demo .sampled []).map (·.2) = some true ∧
      (setKey demo .sampled "Current.Import,RPM".toList).map (·.2) = some false ∧
      (setKey demo .sampled "Current".toList).map (·.2) = some false ∧
      (setKey demo .sampled "Current.Import, SoC".toList).map (·.2) = some false ∧
      (setKey demo .sampled "Current.Import,".toList).map (·.2) = some false ∧
      (setKey demo .sampled "Voltage.L1".toList).map (·.2) = some false := by decide +kernel

/-- The readings asked for after the first of them. -/
example : ((setKey demo .sampled (csv [.currentImport, .soc])).bind (fun x => wantedBy x.1 .sampled)) =
    some [⟨.currentImport, none⟩, ⟨.currentImport, some .l1⟩, ⟨.currentImport, some .l2⟩, ⟨.currentImport, some .l3⟩,
      ⟨.currentImport, some .n⟩, ⟨.soc, none⟩] := by decide +kernel

/-- A charge point that is constructed, and two that are not: an unknown name, a key with an unsupported measurand. -/
example : (construct "Voltage,SoC,".toList (fun _ => "SoC".toList)).isSome = true ∧
    (construct "Voltage,Soc".toList (fun _ => [])).isSome = false ∧
    (construct "Voltage".toList (fun k => if k = .stopSampled then "SoC".toList else [])).isSome = false := by
  decide +kernel

/-- **C262 (partial, once).** If no measurand is listed twice no reading is asked for twice. -/
theorem C262_once_partial (c c' : Conf) (k : Key) (ms : List Measurand) (h : setKey c k (csv ms) = some (c', true))
    (hn : ms.Nodup) : ∃ ws, wantedBy c' k = some ws ∧ ws.Nodup := by
  obtain ⟨c1, ok, h1, h2, h3, h4, h5, h6⟩ := C262_accepted c k (csv ms)
  rw [h] at h1
  simp only [Option.some.injEq, Prod.mk.injEq] at h1
  obtain ⟨rfl, rfl⟩ := h1
  refine ⟨_, (csvToWanted_iff _ _ _).mpr ⟨ms, h5 rfl, rfl⟩, ?_⟩
  have hnew : ∀ acc w, acc.Nodup → (addNew acc w).Nodup := by
    intro acc w ha
    unfold addNew
    split
    · exact ha
    · next hc =>
      rw [List.nodup_append]
      refine ⟨ha, by simp, ?_⟩
      rintro a h1 b h2 rfl
      simp only [List.mem_singleton] at h2
      subst h2
      exact hc (by simpa using h1)
  have hfold : ∀ (m : Measurand) (ps : List Phase) acc, acc.Nodup →
      (ps.foldl (fun acc p => addNew acc ⟨m, some p⟩) acc).Nodup := by
    intro m ps
    induction ps with
    | nil => intro acc ha; exact ha
    | cons p r ih => intro acc ha; exact ih _ (hnew _ _ ha)
  have main : ∀ (l : List Measurand) acc, l.Nodup → acc.Nodup → (∀ w ∈ acc, w.measurand ∉ l) →
      (l.foldl (addMeasurand c'.supported) acc).Nodup := by
    intro l
    induction l with
    | nil => intro acc _ ha _; exact ha
    | cons m r ih =>
      intro acc hl ha hd
      rw [List.nodup_cons] at hl
      rw [List.foldl_cons]
      refine ih _ hl.2 ?_ ?_
      · unfold addMeasurand
        split
        · refine hfold _ _ _ ?_
          rw [List.nodup_append]
          refine ⟨ha, by simp, ?_⟩
          rintro a h1 b h2 rfl
          simp only [List.mem_singleton] at h2
          subst h2
          exact hd _ h1 (by simp)
        · exact hnew _ _ ha
      · intro w hw
        rcases (mem_addMeasurand _ _ _ _).mp hw with h1 | rfl | ⟨_, p, _, rfl⟩
        · exact fun hm => hd w h1 (by simp [hm])
        · exact hl.1
        · exact hl.1
  exact main ms [] hn (by simp) (by simp)

/-- **C262 fails.** A list that names a measurand twice is accepted; the total of a measurand with phases is then asked for twice,
so that every MeterValues.req has the same reading twice. -/
theorem C262_violated : ∃ (c c' : Conf) (ms : List Measurand), setKey c .sampled (csv ms) = some (c', true) ∧
    wantedBy c' .sampled = some [⟨.voltage, none⟩, ⟨.voltage, some .l1⟩, ⟨.voltage, some .l2⟩, ⟨.voltage, some .l3⟩,
      ⟨.voltage, none⟩] := by
  obtain ⟨c', ok, h1, h2, h3, h4, h5, h6⟩ := C262_accepted demo .sampled (csv [.voltage, .voltage])
  have hok : ok = true := h2.mpr ⟨_, rfl, by simp [demo]⟩
  subst hok
  refine ⟨demo, c', [.voltage, .voltage], h1, ?_⟩
  unfold wantedBy
  rw [h5 rfl, h3]
  decide +kernel

end Verif.Met16.Texts
