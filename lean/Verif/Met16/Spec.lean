import Verif.Met16.Model

/-!
# What meter values should tell (OCPP 1.6)

The readings that a measurement has for a measurand and a phase, and the samples and records that follow from them,
without reference to the functions of the model.
-/

namespace Verif.Met16

/-- The value among those for the total and the phases. -/
def valueAt (p : Option Phase) (total l1 l2 l3 n : Option Val) : Option Val :=
  match p with
  | none => total
  | some .l1 => l1
  | some .l2 => l2
  | some .l3 => l3
  | some .n => n
  | some _ => none

/-- The location of a sensor: the one that is given if it is one of OCPP, none if it is not, or else the usual one. -/
def locationOr (usual : Option Location) : Option LocText → Option Location
  | none => usual
  | some (.known l) => some l
  | some .unknown => none

/-- The readings at the outlet. -/
def atOutlet (v : Option Val) : List (Val × Option Location) := v.toList.map (fun x => (x, some .outlet))

/-- The readings of the measurement `m` (and of the connector `c`) for a measurand and a phase (or the total), with their
locations. -/
def readings (c : Connector) (m : Measurement) (k : Measurand) (p : Option Phase) : List (Val × Option Location) :=
  match k with
  | .energyActiveImportRegister =>
    atOutlet (valueAt p m.energyImport.total m.energyImport.l1 m.energyImport.l2 m.energyImport.l3 none)
  | .energyActiveExportRegister =>
    (m.energyExport.bind (fun e => valueAt p e.total e.l1 e.l2 e.l3 none)).toList.map (fun x => (x, none))
  | .powerActiveImport => atOutlet (m.power.bind (fun e => valueAt p e.total e.l1 e.l2 e.l3 none))
  | .voltage => atOutlet (m.voltage.bind (fun e => valueAt p e.dc e.l1 e.l2 e.l3 none))
  | .currentImport => atOutlet (m.current.bind (fun e => valueAt p e.dc e.l1 e.l2 e.l3 e.n))
  | .frequency => (m.frequency.bind (fun e => valueAt p none e.l1 e.l2 e.l3 none)).toList.map (fun x => (x, none))
  | .currentOffered => if p = none then [(c.maxCurrent, some .outlet)] else []
  | .powerOffered => if p = none then [(c.maxPower, some .outlet)] else []
  | .soc => if p = none then m.soc.toList.map (fun x => (x.1, locationOr (some .ev) x.2)) else []
  | .rpm => if p = none then m.rpm.toList.map (fun x => (x.1, locationOr (some .ev) x.2)) else []
  | .temperature => if p = none then m.temperatures.map (fun x => (x.1, locationOr none x.2)) else []
  | _ => []

/-- The unit of a measurand. -/
def unitOf : Measurand → Option Unt
  | .energyActiveImportRegister | .energyActiveExportRegister => some .wh
  | .powerActiveImport | .powerOffered => some .w
  | .voltage => some .v
  | .currentImport | .currentOffered => some .a
  | .soc => some .percent
  | .temperature => some .celsius
  | _ => none

/-- The samples for one measurand: the total and then the phases, as far as there are readings. -/
def samplesFor (c : Connector) (m : Measurement) (ctx : Context) (k : Measurand) : List Sample :=
  [none, some .l1, some .l2, some .l3, some .n].flatMap (fun p =>
    (readings c m k p).map (fun r => ⟨.number r.1, ctx, some k, p, r.2, unitOf k⟩))

/-- The samples for the measurands of a configuration key. -/
def report (c : Connector) (m : Measurement) (ctx : Context) (ks : List Measurand) : List Sample :=
  ks.flatMap (samplesFor c m ctx)

/-- The locations given with the measurement are locations of OCPP. -/
def KnownLocations (m : Measurement) : Prop :=
  (∀ v, m.soc ≠ some (v, some .unknown)) ∧ (∀ v, m.rpm ≠ some (v, some .unknown)) ∧
    ∀ v, (v, some .unknown) ∉ m.temperatures

/-- The measurement has no current for the neutral conductor. -/
def NoNeutral (m : Measurement) : Prop := ∀ e, m.current = some e → e.n = none

/-- What is known of the connector after the events: the last measurement and the last offers. -/
def known (c : Connector) : List Ev → Connector
  | [] => c
  | .measured m :: es => known { c with measurement := some m } es
  | .offered a p :: es =>
    known
      { c with
        maxCurrent := a
        maxPower := p } es
  | _ :: es => known c es

/-- The measurements of a history. -/
def measurements : List Ev → List Measurement
  | [] => []
  | .measured m :: es => m :: measurements es
  | _ :: es => measurements es

/-- What StopTransaction.req should tell about the time between start and stop: for each sample time the measurands of
StopTxnSampledData, for each clock-aligned time those of StopTxnAlignedData. -/
def recorded (cfg : Cfg) (c : Connector) : List Ev → List MeterValue
  | [] => []
  | .measured m :: es => recorded cfg { c with measurement := some m } es
  | .offered a p :: es =>
    recorded cfg
      { c with
        maxCurrent := a
        maxPower := p } es
  | .sample :: es =>
    (match c.measurement with
      | none => []
      | some m => [⟨m.time, report c m .periodic cfg.stopSampled⟩]) ++ recorded cfg c es
  | .aligned :: es =>
    (match c.measurement with
      | none => []
      | some m => [⟨m.time, report c m .clock cfg.stopAligned⟩]) ++ recorded cfg c es
  | _ :: es => recorded cfg c es

/-- The signed meter value, if there is one. -/
def signedData (ctx : Context) : Option (Int × List Char) → List MeterValue
  | none => []
  | some (t, x) => [⟨t, [{ content := .signed x, context := ctx }]⟩]

/-- The data of StopTransaction.req of a transaction that started with the connector as in `c` and during which `es`
happened; meter values without samples are left out. -/
def transactionData (cfg : Cfg) (c : Connector) (begin ending : Option (Int × List Char)) (es : List Ev) :
    List MeterValue :=
  (signedData .begin begin ++ recorded cfg c es ++ signedData .ending ending).filter (fun v => !v.samples.isEmpty)

/-- The same time and the same samples (in any order). -/
def SameValue (a b : MeterValue) : Prop := a.time = b.time ∧ ∀ s, s ∈ a.samples ↔ s ∈ b.samples

/-- Two lists of meter values that tell the same. -/
inductive SameData : List MeterValue → List MeterValue → Prop
  | nil : SameData [] []
  | cons {a b : MeterValue} {as bs : List MeterValue} : SameValue a b → SameData as bs → SameData (a :: as) (b :: bs)

end Verif.Met16
