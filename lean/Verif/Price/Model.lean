/-!
# Running cost and the meter values it asks for

With a RunningCost or FinalCost message the CSMS tells the cost of a session and asks for meter values: when the register
reaches an energy, when the power crosses a threshold, at a time, and (OCPP 1.6) when the status changes.  The model covers
`ChargePointImpl::handle_set_session_cost`, `send_meter_value_on_pricing_trigger`, `set_connector_trigger_metervalue_timer`,
`reset_pricing_triggers` and the status callback in `/repo/lib/ocpp/v16/charge_point_impl.cpp` (namespace `V16`), and
`TariffAndCost::handle_costupdated_req` in `/repo/lib/ocpp/v2/functional_blocks/tariff_and_cost.cpp` with
`Evse::set_meter_value_pricing_triggers`, `send_meter_value_on_pricing_trigger` and `reset_pricing_triggers` in
`/repo/lib/ocpp/v2/evse.cpp` (namespace `V2`).

Simplifications: energies in Wh, powers in W and times in seconds are exact integers (doubles in the code, so the 5 % are
`21 * P ≤ 20 * p`); a meter value is reduced to the totals of Energy.Active.Import.Register and Power.Active.Import; one
connector (or EVSE).
-/

namespace Verif.Price

/-- A status of a connector. -/
abbrev Status := Nat

/-- `TriggerMeterValue` (`/repo/lib/ocpp/common/types.cpp` l.732-764). -/
structure Triggers where
  energy : Option Int := none
  power : Option Int := none
  status : Option (List Status) := none
  time : Option Int := none
deriving DecidableEq, Repr

/-- A meter value. -/
structure Reading where
  energy : Option Int
  power : Option Int := none
deriving DecidableEq, Repr

/-- What happens: a cost message at a time, a measurement, a report of a status, the clock shows a time (timers that are
due fire), the transaction ends. -/
inductive Ev
  | cost (now : Int) (t : Triggers)
  | measured (r : Reading)
  | status (s : Status)
  | clock (now : Int)
  | stop
deriving DecidableEq, Repr

/-- The state of a connector (`/repo/include/ocpp/v16/connector.hpp` l.14-37) or an EVSE
(`/repo/include/ocpp/v2/evse.hpp` l.184-188; without status). -/
structure Con where
  energy : Option Int := none
  power : Option Int := none
  status : Option (List Status) := none
  previous : Option Status := none
  last : Option Int := none
  timer : Option Int := none
  reading : Option Reading := none
deriving DecidableEq, Repr

/-- The condition for the power trigger, with the hysteresis (`v16/charge_point_impl.cpp` l.1070-1078; `v2/evse.cpp`
l.638-647): `last` is the power that was sent, `now` the power that is measured. -/
def crossed (threshold last now : Int) : Bool :=
  (decide (last < threshold) && decide (21 * threshold ≤ 20 * now)) ||
    (decide (threshold < last) && decide (20 * now ≤ 19 * threshold))

/-- `reset_pricing_triggers` (`v16/charge_point_impl.cpp` l.1107-1119; `v2/evse.cpp` l.577-587). -/
def reset (c : Con) : Con := { reading := c.reading }

/-- The value for the time and status triggers: only the energy, if there is one. -/
def energyOnly : Option Reading → List Reading
  | none => []
  | some r =>
    match r.energy with
    | none => []
    | some e => [⟨some e, none⟩]

/-- A timer that is due fires once. -/
def fire (c : Con) (now : Int) : Con × List Reading :=
  match c.timer with
  | none => (c, [])
  | some t => if t ≤ now then ({ c with timer := none }, energyOnly c.reading) else (c, [])

/-! ## OCPP 1.6 -/

namespace V16

/-- The second half of `send_meter_value_on_pricing_trigger` (l.1059-1104). -/
def powerPart (c : Con) (r : Reading) : Con × List Reading :=
  match c.power, r.power with
  | some threshold, some p =>
    match c.last with
    | some l => if crossed threshold l p then ({ c with last := some p }, [r]) else (c, [])
    | none => ({ c with last := some p }, [r])
  | _, _ => (c, [])

/-- `send_meter_value_on_pricing_trigger` (l.1035-1105); a measurement of 1.6 always has an energy (l.1039: `none` does not
reach the threshold). -/
def onReading (c : Con) (r : Reading) : Con × List Reading :=
  match c.energy, r.energy with
  | some threshold, some e =>
    if threshold ≤ e then ({ c with energy := none }, [⟨some e, none⟩]) else powerPart c r
  | _, _ => powerPart c r

/-- `set_connector_trigger_metervalue_timer` (l.3394-3442).  `offset` is what DisplayTimeOffset adds, in seconds. -/
def setTimer (offset : Int) (now : Int) (c : Con) (t : Int) : Con :=
  if t < now then c else { c with timer := some (t + offset) }

/-- The triggers of a cost message (l.3378-3389). -/
def setTriggers (offset : Int) (now : Int) (c : Con) (t : Triggers) : Con :=
  let c' : Con :=
    { c with
      energy := t.energy
      power := t.power
      status := t.status }
  match t.time with
  | none => c'
  | some x => setTimer offset now c' x

/-- The part of the status callback for the triggers (l.155-174). -/
def onStatus (c : Con) (s : Status) : Con × List Reading :=
  match c.status with
  | none => (c, [])
  | some l =>
    ({ c with previous := some s }, if l.contains s && (c.previous != some s) then energyOnly c.reading else [])

/-- One event. -/
def step (offset : Int) (c : Con) : Ev → Con × List Reading
  | .cost now t => (setTriggers offset now c t, [])
  | .measured r => onReading { c with reading := some r } r
  | .status s => onStatus c s
  | .clock now => fire c now
  | .stop => (reset c, [])

/-- What DisplayTimeOffset with the numbers `h` and `m` before and after the colon adds (l.3409-3426); `none` if there is
no offset or if it is not of this form (then, if only the minutes cannot be read, the code adds the hours; this case is left
out). -/
def offsetOf : Option (Int × Int) → Int
  | none => 0
  | some (h, m) => 3600 * h + 60 * m

end V16

/-! ## OCPP 2.x -/

namespace V2

/-- The first half of `Evse::send_meter_value_on_pricing_trigger` (l.589-616) and whether a meter value was sent.  The
function that sends is set together with the triggers and cleared together with them (l.539-541, 578-581), so it is there
when a trigger is. -/
def energyPart (c : Con) (r : Reading) : Con × List Reading :=
  match c.energy, r.energy with
  | some threshold, some e => if threshold ≤ e then ({ c with energy := none }, [r]) else (c, [])
  | _, _ => (c, [])

/-- The second half (l.618-667). -/
def powerPart (sent : Bool) (c : Con) (r : Reading) : Con × List Reading :=
  match c.power, r.power with
  | some threshold, some p =>
    match c.last with
    | some l =>
      if crossed threshold l p then ({ c with last := some p }, if sent then [] else [r]) else (c, [])
    | none => ({ c with last := some p }, if sent then [] else [r])
  | _, _ => (c, [])

/-- `Evse::send_meter_value_on_pricing_trigger` (l.589-668). -/
def onReading (c : Con) (r : Reading) : Con × List Reading :=
  let a := energyPart c r
  let b := powerPart (!a.2.isEmpty) a.1 r
  (b.1, a.2 ++ b.2)

/-- The timer of `Evse::set_meter_value_pricing_triggers` (l.542-574). -/
def setTimer (now : Int) (c : Con) (t : Int) : Con :=
  if t < now then { c with timer := none } else { c with timer := some t }

/-- `Evse::set_meter_value_pricing_triggers` (l.522-575), called by `handle_costupdated_req` (l.234-262) if there is one of
the three triggers. -/
def setTriggers (now : Int) (c : Con) (t : Triggers) : Con :=
  if t.energy.isNone && t.power.isNone && t.time.isNone then c
  else
    let c' : Con :=
      { c with
        energy := t.energy
        power := t.power }
    match t.time with
    | none => c'
    | some x => setTimer now c' x

/-- One event; there is no trigger for the status. -/
def step (c : Con) : Ev → Con × List Reading
  | .cost now t => (setTriggers now c t, [])
  | .measured r => onReading { c with reading := some r } r
  | .status _ => (c, [])
  | .clock now => fire c now
  | .stop => (reset c, [])

end V2

/-! ## Histories -/

/-- A connector as a machine. -/
abbrev Machine := Con → Ev → Con × List Reading

/-- The state after a history. -/
def run (f : Machine) (c : Con) (es : List Ev) : Con := es.foldl (fun c e => (f c e).1) c

/-- The events with what is sent at each. -/
def trace (f : Machine) (c : Con) : List Ev → List (Ev × List Reading)
  | [] => []
  | e :: es => (e, (f c e).2) :: trace f (f c e).1 es

end Verif.Price
