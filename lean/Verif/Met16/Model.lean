/-!
# Meter values (OCPP 1.6)

The measurands of a configuration key (`csv_to_measurand_with_phase_vector`, `init_supported_measurands`,
`lib/ocpp/v16/charge_point_configuration.cpp` l.263-305, 1024-1066), the meter value made of a measurement
(`get_latest_meter_value`, `lib/ocpp/v16/charge_point_impl.cpp` l.606-978), when it is sent and recorded for a transaction
(l.471-486, 996-1033, 4375-4415, `lib/ocpp/v16/transaction.cpp` l.35-48) and the data of StopTransaction.req
(`get_filtered_transaction_data`, l.4540-4583).

Simplified: readings are integers (their conversion to text is not modelled; it is never empty); the texts of the
configuration keys are lists of measurands (their parsing is in `Verif.Conf16`, `Verif.Wire`); times are integers; the
configuration does not change during a transaction.
-/

namespace Verif.Met16

/-- A reading. -/
abbrev Val := Int

/-- `Measurand` (`include/ocpp/v16/ocpp_enums.hpp` l.620-643). -/
inductive Measurand
  | energyActiveExportRegister | energyActiveImportRegister | energyReactiveExportRegister | energyReactiveImportRegister
  | energyActiveExportInterval | energyActiveImportInterval | energyReactiveExportInterval | energyReactiveImportInterval
  | powerActiveExport | powerActiveImport | powerOffered | powerReactiveExport | powerReactiveImport | powerFactor
  | currentImport | currentExport | currentOffered | voltage | frequency | temperature | soc | rpm
deriving DecidableEq, Repr

/-- `Phase` (l.660-671). -/
inductive Phase
  | l1 | l2 | l3 | n | l1n | l2n | l3n | l1l2 | l2l3 | l3l1
deriving DecidableEq, Repr

/-- `Location` (l.688-694). -/
inductive Location
  | cable | ev | inlet | outlet | body
deriving DecidableEq, Repr

/-- The units that are used (`UnitOfMeasure`, l.711-729). -/
inductive Unt
  | wh | w | v | a | celsius | percent
deriving DecidableEq, Repr

/-- The contexts that are used (`ReadingContext`). -/
inductive Context
  | periodic | clock | trigger | other | begin | ending
deriving DecidableEq, Repr

/-- The text of a location given by the application: one that `string_to_location` knows or another one. -/
inductive LocText
  | known (l : Location)
  | unknown
deriving DecidableEq, Repr

/-- `Energy`, `Power` (`include/ocpp/common/types.hpp`). -/
structure Phased where
  total : Val
  l1 : Option Val := none
  l2 : Option Val := none
  l3 : Option Val := none
deriving DecidableEq, Repr

/-- `Voltage` (which has no value for N), `Current` (`include/ocpp/common/types.hpp`). -/
structure Electric where
  dc : Option Val := none
  l1 : Option Val := none
  l2 : Option Val := none
  l3 : Option Val := none
  n : Option Val := none
deriving DecidableEq, Repr

/-- `Frequency` (`include/ocpp/common/types.hpp`). -/
structure Freq where
  l1 : Val
  l2 : Option Val := none
  l3 : Option Val := none
deriving DecidableEq, Repr

/-- `Measurement` (`include/ocpp/common/types.hpp` l.271-293, 340-344) without the reactive power, which is not used. -/
structure Measurement where
  time : Int
  energyImport : Phased
  energyExport : Option Phased := none
  power : Option Phased := none
  voltage : Option Electric := none
  current : Option Electric := none
  frequency : Option Freq := none
  soc : Option (Val × Option LocText) := none
  temperatures : List (Val × Option LocText) := []
  rpm : Option (Val × Option LocText) := none
deriving DecidableEq, Repr

/-- What a sample holds: a number, or the text of a signed meter value. -/
inductive Content
  | number (v : Val)
  | signed (text : List Char)
deriving DecidableEq, Repr

/-- `SampledValue` (`include/ocpp/v16/ocpp_types.hpp`). -/
structure Sample where
  content : Content
  context : Context
  measurand : Option Measurand := none
  phase : Option Phase := none
  location : Option Location := none
  unt : Option Unt := none
deriving DecidableEq, Repr

/-- `MeterValue`, `TransactionData`. -/
structure MeterValue where
  time : Int
  samples : List Sample
deriving DecidableEq, Repr

/-- `MeasurandWithPhase` (`include/ocpp/v16/types.hpp`). -/
structure Wanted where
  measurand : Measurand
  phase : Option Phase := none
deriving DecidableEq, Repr

/-! ## The measurands of a configuration key -/

/-- The phases of a supported measurand (`init_supported_measurands`, l.268-296). -/
def phasesOf : Measurand → List Phase
  | .energyActiveExportRegister | .energyActiveImportRegister | .energyReactiveExportRegister
  | .energyReactiveImportRegister | .energyActiveExportInterval | .energyActiveImportInterval
  | .energyReactiveExportInterval | .energyReactiveImportInterval | .powerActiveExport | .powerActiveImport
  | .voltage | .frequency | .powerReactiveExport | .powerReactiveImport => [.l1, .l2, .l3]
  | .currentImport | .currentExport => [.l1, .l2, .l3, .n]
  | .powerFactor | .currentOffered | .powerOffered | .temperature | .soc | .rpm => []

/-- `push_back` unless it is there already (l.1044-1047, 1053-1056). -/
def addNew (acc : List Wanted) (w : Wanted) : List Wanted := if acc.contains w then acc else acc ++ [w]

/-- One turn of the loop (l.1032-1058). -/
def addMeasurand (supported : List Measurand) (acc : List Wanted) (m : Measurand) : List Wanted :=
  if supported.contains m && !(phasesOf m).isEmpty then
    (phasesOf m).foldl (fun acc p => addNew acc ⟨m, some p⟩) (acc ++ [⟨m, none⟩])
  else addNew acc ⟨m, none⟩

/-- `csv_to_measurand_with_phase_vector` (l.1024-1066). -/
def wantedOf (supported ms : List Measurand) : List Wanted := ms.foldl (addMeasurand supported) []

/-! ## The meter value of a measurement -/

/-- The value for a phase, or the total (l.641-670, 680-712, 724-750). -/
def phasedValue (p : Phased) : Option Phase → Option Val
  | some .l1 => p.l1
  | some .l2 => p.l2
  | some .l3 => p.l3
  | some _ => none
  | none => some p.total

/-- The value for a phase, or the DC value (l.762-796, 808-843). -/
def electricValue (e : Electric) : Option Phase → Option Val
  | some .l1 => e.l1
  | some .l2 => e.l2
  | some .l3 => e.l3
  | some _ => none
  | none => e.dc

/-- The value for a phase (l.856-879); there is no total. -/
def freqValue (f : Freq) : Option Phase → Option Val
  | some .l1 => some f.l1
  | some .l2 => f.l2
  | some .l3 => f.l3
  | some _ => none
  | none => none

/-- The sample, if it has a value (l.972-975). -/
def sampleIf (s : Sample) : Option Val → List Sample
  | some v => [{ s with content := .number v }]
  | none => []

/-- The samples of a sensor whose location is converted; an unknown one throws (l.906-925, 949-962). -/
def located (s : Sample) : Option (Val × Option LocText) → Option (List Sample)
  | none => some []
  | some (v, none) =>
    some [{ s with
      content := .number v
      location := some .ev }]
  | some (v, some (.known l)) =>
    some [{ s with
      content := .number v
      location := some l }]
  | some (_, some .unknown) => none

/-- The location of a temperature (l.930-941): an unknown one leaves that of the sample before. -/
def temperatureLocation (before : Option Location) : Option LocText → Option Location
  | none => none
  | some (.known l) => some l
  | some .unknown => before

/-- The loop over the temperatures (l.928-945). -/
def temperatureSamples (s : Sample) (before : Option Location) : List (Val × Option LocText) → List Sample
  | [] => []
  | (v, t) :: r =>
    { s with
      content := .number v
      location := temperatureLocation before t } :: temperatureSamples s (temperatureLocation before t) r

/-- What is known of a connector (`include/ocpp/v16/connector.hpp` l.14-27) as far as meter values are concerned. -/
structure Connector where
  measurement : Option Measurement := none
  maxCurrent : Val := 0
  maxPower : Val := 0
deriving DecidableEq, Repr

/-- The sample under construction (l.623-628). -/
def fresh (ctx : Context) (w : Wanted) : Sample :=
  { content := .number 0
    context := ctx
    measurand := some w.measurand }

/-- The phase is noted by the measurands that look at it (l.644, 683, 727, 765, 811, 859). -/
def withPhase (s : Sample) (w : Wanted) : Sample := { s with phase := w.phase }

/-- One turn of the loop over the wanted measurands (l.620-976): the samples, `none` for an exception. -/
def samplesOf (c : Connector) (m : Measurement) (ctx : Context) (w : Wanted) : Option (List Sample) :=
  let s := fresh ctx w
  match w.measurand with
  | .energyActiveImportRegister =>
    some (sampleIf { withPhase s w with unt := some .wh, location := some .outlet } (phasedValue m.energyImport w.phase))
  | .energyActiveExportRegister =>
    some (sampleIf { withPhase s w with unt := some .wh } (m.energyExport.bind (fun p => phasedValue p w.phase)))
  | .powerActiveImport =>
    some (sampleIf { withPhase s w with unt := some .w, location := some .outlet }
      (m.power.bind (fun p => phasedValue p w.phase)))
  | .voltage =>
    some (sampleIf { withPhase s w with unt := some .v, location := some .outlet }
      (m.voltage.bind (fun e => electricValue e w.phase)))
  | .currentImport =>
    some (sampleIf { withPhase s w with unt := some .a, location := some .outlet }
      (m.current.bind (fun e => electricValue e w.phase)))
  | .frequency => some (sampleIf (withPhase s w) (m.frequency.bind (fun f => freqValue f w.phase)))
  | .currentOffered => some (sampleIf { s with unt := some .a, location := some .outlet } (some c.maxCurrent))
  | .powerOffered => some (sampleIf { s with unt := some .w, location := some .outlet } (some c.maxPower))
  | .soc => located { s with unt := some .percent } m.soc
  | .temperature => some (temperatureSamples { s with unt := some .celsius } none m.temperatures)
  | .rpm => located s m.rpm
  | _ => some []

/-- The whole loop. -/
def allSamples (c : Connector) (m : Measurement) (ctx : Context) : List Wanted → Option (List Sample)
  | [] => some []
  | w :: ws =>
    match samplesOf c m ctx w, allSamples c m ctx ws with
    | some a, some b => some (a ++ b)
    | _, _ => none

/-- The result of `get_latest_meter_value` (l.606-978). -/
inductive Latest
  | throws
  | nothing
  | value (v : MeterValue)
deriving DecidableEq, Repr

/-- `get_latest_meter_value`. -/
def latest (c : Connector) (ws : List Wanted) (ctx : Context) : Latest :=
  match c.measurement with
  | none => .nothing
  | some m =>
    match allSamples c m ctx ws with
    | none => .throws
    | some l => .value ⟨m.time, l⟩

/-! ## Sending, and recording for a transaction -/

/-- The configuration: SupportedMeasurands, MeterValuesSampledData, MeterValuesAlignedData, StopTxnSampledData,
StopTxnAlignedData. -/
structure Cfg where
  supported : List Measurand
  sampled : List Measurand
  aligned : List Measurand
  stopSampled : List Measurand
  stopAligned : List Measurand
deriving DecidableEq, Repr

/-- A transaction (`transaction.cpp` l.10-27): its meter values and whether one of them is signed. -/
structure Tx where
  values : List MeterValue := []
  signed : Bool := false
deriving DecidableEq, Repr

/-- One connector and its transaction. -/
structure St where
  con : Connector := {}
  tx : Option Tx := none
deriving DecidableEq, Repr

/-- What happens at the connector: the application reports a measurement or what is offered, a transaction starts or
stops (with a signed meter value or without), the sample timer of the transaction or the clock-aligned timer fires. -/
inductive Ev
  | measured (m : Measurement)
  | offered (current power : Val)
  | start (signed : Option (Int × List Char))
  | stop (signed : Option (Int × List Char))
  | sample
  | aligned
deriving DecidableEq, Repr

/-- What is sent: MeterValues.req, StopTransaction.req with its data; or an exception leaves the handler of the timer. -/
inductive Out
  | meterValues (v : MeterValue)
  | stopTransaction (data : List MeterValue)
  | throws
deriving DecidableEq, Repr

/-- Whether the value of a sample is signed (`transaction.cpp` l.41-44). -/
def isSigned (s : Sample) : Bool :=
  match s.content with
  | .signed _ => true
  | .number _ => false

/-- `Transaction::add_meter_value` (`transaction.cpp` l.36-48; the transaction is active until it is stopped). -/
def addValue (t : Tx) (v : MeterValue) : Tx :=
  { values := t.values ++ [v]
    signed := t.signed || v.samples.any isSigned }

/-- `get_signed_meter_value` (l.982-993). -/
def signedValue (ctx : Context) (x : Int × List Char) : MeterValue :=
  ⟨x.1, [{ content := .signed x.2, context := ctx }]⟩

/-- A signed meter value is added (l.4412-4416, 4435-4439). -/
def addSigned (ctx : Context) (x : Option (Int × List Char)) (t : Tx) : Tx :=
  match x with
  | none => t
  | some y => addValue t (signedValue ctx y)

/-- `send_meter_value` (l.996-1033): nothing without samples. -/
def send (v : MeterValue) : List Out := if v.samples.isEmpty then [] else [.meterValues v]

/-- Whether a sample is kept for StopTransaction.req (l.4552-4572). -/
def keep (cfg : Cfg) (s : Sample) : Bool :=
  match s.measurand with
  | none => true
  | some m => if s.context = .clock then cfg.stopAligned.contains m else cfg.stopSampled.contains m

/-- `get_filtered_transaction_data` (l.4540-4583). -/
def stopData (cfg : Cfg) (t : Tx) : List MeterValue :=
  if !cfg.stopSampled.isEmpty || !cfg.stopAligned.isEmpty || t.signed then
    (t.values.map (fun v => (⟨v.time, v.samples.filter (keep cfg)⟩ : MeterValue))).filter (fun v => !v.samples.isEmpty)
  else []

/-- A meter value is recorded for the transaction, if there is one. -/
def record (s : St) (v : MeterValue) : St := { s with tx := s.tx.map (fun t => addValue t v) }

/-- A timer fires: the meter value is recorded and sent (l.471-486, 4375-4405). -/
def fire (s : St) (r : Latest) : St × List Out :=
  match r with
  | .throws => (s, [.throws])
  | .nothing => (s, [])
  | .value v => (record s v, send v)

/-- One event.  The sample timer belongs to the transaction (`on_transaction_started` l.4365-4418); `on_transaction_stopped`
l.4420-4463. -/
def step (cfg : Cfg) (s : St) : Ev → St × List Out
  | .measured m => ({ s with con := { s.con with measurement := some m } }, [])
  | .offered c p =>
    ({ s with
        con := { s.con with
          maxCurrent := c
          maxPower := p } }, [])
  | .start x => ({ s with tx := some (addSigned .begin x {}) }, [])
  | .stop x =>
    match s.tx with
    | none => (s, [])
    | some t => ({ s with tx := none }, [.stopTransaction (stopData cfg (addSigned .ending x t))])
  | .sample =>
    match s.tx with
    | none => (s, [])
    | some _ => fire s (latest s.con (wantedOf cfg.supported cfg.sampled) .periodic)
  | .aligned => fire s (latest s.con (wantedOf cfg.supported cfg.aligned) .clock)

/-- The state after a list of events. -/
def run (cfg : Cfg) (s : St) (es : List Ev) : St := es.foldl (fun s e => (step cfg s e).1) s

/-- Everything that is sent. -/
def outs (cfg : Cfg) (s : St) : List Ev → List Out
  | [] => []
  | e :: es => (step cfg s e).2 ++ outs cfg (step cfg s e).1 es

end Verif.Met16
