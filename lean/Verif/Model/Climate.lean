import Verif.Model.Time
import Mathlib.Data.Rat.Defs
import Mathlib.Algebra.Field.Rat
import Mathlib.Algebra.Order.Field.Rat
import Mathlib.Logic.Function.Iterate

/-!
# Climate simulators (`demod/simulators/weather_simulators.py`) and historical climate data (`demod/datasets/base_loader.py`)

Times are microseconds, naive and in UTC.
-/

namespace Demod

/-- Microseconds in a minute. (`weather_simulators.py:307-345`) -/
def MINUTE : Int := 60000000

/-! ## CrestClimateSimulator -/

/-- What `CrestClimateSimulator` uses: an irradiance simulator with states `S` (its step includes its random draws), the daily parameters `A` (ARMA variables, `_update_ARMA` and `_compute_extraterrestrial_irradiance`, which get the current time, and the draws) and
`_step_day`. Values are of an arbitrary type. (`weather_simulators.py:307-362`) -/
structure ClimateOps (S V A : Type) where
  irrStep : S → S
  irradiance : S → V
  clearness : S → V
  newDay : Int → A → A
  stepDay : A → List V → List V → Except PyErr (List V)

/-- The state of a `CrestClimateSimulator`; the iterators are lists of what is left. `irradiance` and `temperature` do not exist before the first call of `next`. (`weather_simulators.py:307-362`) -/
structure CrestClimate (S V A : Type) where
  clock : Int
  irr : S
  arma : A
  irrIter : List V
  tempIter : List V
  irradiance : Option V
  temperature : Option V

variable {S V A : Type}

namespace ClimateOps

/-- The loop of `weather_simulators.py:376-382`: the values before each of `n` steps and the state after them. -/
def simulate (C : ClimateOps S V A) : Nat → S → List V × List V × S
  | 0, s => ([], [], s)
  | n + 1, s =>
    let (irrs, clears, s') := C.simulate n (C.irrStep s)
    (C.irradiance s :: irrs, C.clearness s :: clears, s')

/-- `on_before_next_day`, `weather_simulators.py:364-393`. -/
def onBeforeNextDay (C : ClimateOps S V A) (s : CrestClimate S V A) : Except PyErr (CrestClimate S V A) := do
  let arma := C.newDay s.clock s.arma
  let (irrs, clears, irr) := C.simulate (24 * 60) s.irr
  let temps ← C.stepDay arma irrs clears
  return { s with irr := irr, arma := arma, irrIter := irrs, tempIter := temps }

/-- `self.irradiance = next(...)`, `self.temperature = next(...)`. (`weather_simulators.py:403-406`) -/
def nextValues (s : CrestClimate S V A) : Except PyErr (CrestClimate S V A) :=
  match s.irrIter with
  | [] => .error .stopIteration
  | v :: vs =>
    match s.tempIter with
    | [] => .error .stopIteration
    | t :: ts => .ok { s with irrIter := vs, tempIter := ts, irradiance := some v, temperature := some t }

/-- `step`, `weather_simulators.py:402-406`, with the callback of line 402; the step size is a minute (the one of the irradiance simulator and the default). -/
def step (C : ClimateOps S V A) (s : CrestClimate S V A) : Except PyErr (CrestClimate S V A) := do
  let s ← if firesBeforeNextDay s.clock MINUTE then C.onBeforeNextDay s else .ok s
  let s ← nextValues s
  return { s with clock := s.clock + MINUTE }

/-- `n` steps. (`weather_simulators.py:402-406`) -/
def run (C : ClimateOps S V A) : Nat → CrestClimate S V A → Except PyErr (CrestClimate S V A)
  | 0, s => .ok s
  | n + 1, s => do C.run n (← C.step s)

/-- `initialize_starting_state`, `weather_simulators.py:347-362`, with `initialization_time=datetime.time(0, 0, 0)` (`taInitialise`: the simulator is put to midnight and stepped to the start); `irr` is the irradiance simulator, created
with the same start. -/
def create (C : ClimateOps S V A) (start : Int) (irr : S) (arma : A) : Except PyErr (CrestClimate S V A) := do
  let s : CrestClimate S V A := { clock := start, irr := irr, arma := arma, irrIter := [], tempIter := [], irradiance := none, temperature := none }
  let s ← C.onBeforeNextDay s
  let s ← nextValues s
  let init ← initDatetime start (.time 0)
  let delta := start - init
  C.run (delta.tdiv MINUTE).toNat { s with clock := init + delta.fmod MINUTE }

end ClimateOps

/-! ## Historical data -/

/-- A table of historical data: times and values. (`base_loader.py:852-911`) -/
abbrev History (V : Type) := List (Int × V)

/-- `load_historical_climate_data`, `base_loader.py:852-911`, once the table is read. An empty table raises `IndexError`. -/
def loadHistory (stepSize : Int) (start : Int) (data : History V) : Except PyErr (History V) :=
  match data.getLast? with
  | none => .error .indexError
  | some last =>
    if start > last.1 then .error .valueError
    else .ok (data.filter fun x => decide (x.1 > start - stepSize))

/-- The state of a `RealClimate`. (`weather_simulators.py:589-667`) -/
structure RealClimate (V : Type) where
  clock : Int
  iter : List V
  value : V

namespace RealClimate

/-- `step`, `weather_simulators.py:669-674`. -/
def step (stepSize : Int) (s : RealClimate V) : Except PyErr (RealClimate V) :=
  match s.iter with
  | [] => .error .stopIteration
  | v :: vs => .ok { clock := s.clock + stepSize, iter := vs, value := v }

/-- `n` steps. (`weather_simulators.py:669-674`) -/
def run (stepSize : Int) : Nat → RealClimate V → Except PyErr (RealClimate V)
  | 0, s => .ok s
  | n + 1, s => do run stepSize n (← s.step stepSize)

/-- `RealClimate.__init__` and `initialize_starting_state`, `weather_simulators.py:589-667`: irradiance and temperature are one value. `start` is the time on the clock of the start's time zone, which is `off` ahead of UTC
(0 for a naive start); the loader gets the time in UTC, and the time of the first data point, which is in UTC, is given the time zone of the start by `replace`. -/
def create (stepSize off start : Int) (data : History V) : Except PyErr (RealClimate V) := do
  let data ← loadHistory stepSize (start - off) data
  match data with
  | [] => .error .indexError
  | (t0, v) :: rest =>
    if t0 > start then throw .valueError
    let init ← initDatetime start (.datetime t0)
    let delta := start - init
    run stepSize (delta.tdiv stepSize).toNat { clock := init + delta.fmod stepSize, iter := rest.map Prod.snd, value := v }

end RealClimate

/-- `interp1d(xs, ys, kind='linear')(x)` of scipy: the line through the first data point that is not before `x` (or the second one) and the one before it; outside of the range it raises `ValueError`. (`weather_simulators.py:793-810`) -/
def interpolate : List (Rat × Rat) → Rat → Except PyErr Rat
  | (x0, y0) :: (x1, y1) :: rest, x =>
    if x < x0 then .error .valueError
    else if x ≤ x1 then .ok (y0 + (y1 - y0) / (x1 - x0) * (x - x0))
    else interpolate ((x1, y1) :: rest) x
  | _, _ => .error .valueError

/-- The state of a `RealInterpolatedClimate` for one of the variables: its clock (in the time zone of the start, `off` ahead of UTC), its data (minutes since the first point), the time of the first point, in minutes, and of the last one. (`weather_simulators.py:708-781`) -/
structure InterpolatedClimate where
  clock : Int
  off : Int
  stepSize : Int
  first : Int
  last : Int
  points : List (Rat × Rat)
deriving DecidableEq

namespace InterpolatedClimate

/-- `RealInterpolatedClimate.__init__`, `weather_simulators.py:708-781`: times are truncated to minutes (`datetime64[m]`). `initialize_starting_state` is called with a misspelt argument, so that there are no initialisation steps. -/
def create (dataStep stepSize off start : Int) (data : History Rat) : Except PyErr InterpolatedClimate := do
  let data ← loadHistory dataStep (start - off) data
  match data with
  | [] => throw .indexError
  | x :: rest =>
    let first := x.1 / MINUTE
    if first * MINUTE > start then throw .valueError
    return { clock := start, off := off, stepSize := stepSize, first := first, last := ((x :: rest).getLast (by simp)).1 / MINUTE * MINUTE,
             points := (x :: rest).map fun x => (((x.1 / MINUTE - first : Int) : Rat), x.2) }

/-- `step`, `weather_simulators.py:783-791`. -/
def step (s : InterpolatedClimate) : Except PyErr InterpolatedClimate :=
  let s := { s with clock := s.clock + s.stepSize }
  if s.clock - s.off > s.last then .error .valueError else .ok s

/-- `n` steps. (`weather_simulators.py:783-791`) -/
def run : Nat → InterpolatedClimate → Except PyErr InterpolatedClimate
  | 0, s => .ok s
  | n + 1, s => do run n (← s.step)

/-- The getters, `weather_simulators.py:793-810`. -/
def get (s : InterpolatedClimate) : Except PyErr Rat := interpolate s.points (((s.clock - s.off) / MINUTE - s.first : Int) : Rat)

end InterpolatedClimate

end Demod
