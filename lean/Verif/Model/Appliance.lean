import Verif.Model.Time
import Mathlib.Algebra.Order.Field.Rat
import Mathlib.Data.Rat.Floor

/-!
# Appliances (`demod/simulators/appliance_simulators.py`)

The state arrays have shape (households, appliances) and all operations on them are element-wise: the state is modelled for one appliance of one household. The demands of a household
are sums over its appliances. Numbers are rationals; `n_steps_left` is a float array, `n_steps_till_refresh` an integer array (an
assigned float is truncated). Random draws are arguments.
-/

namespace Demod

/-- What the simulator knows about an appliance of a household: whether it is owned (`available_appliances`), its data, and the load profile drawn for it
(`loads_dict[type][corresponding_load_id]`, padded with zeros, of which `loadDuration` entries are the profile). (`appliance_simulators.py:109-170`) -/
structure Appl where
  owned : Bool
  standby : Rat
  meanPower : Rat
  varLoad : Bool
  row : List Rat
  loadDuration : Nat
  usesWater : Bool
  flow : Rat
  delay : Nat
  switchOff : Bool
  meanDuration : Rat
deriving DecidableEq

/-- `n_steps_left` and `n_steps_till_refresh`. (`appliance_simulators.py:139-170`) -/
structure ApplState where
  left : Rat
  refresh : Int
deriving DecidableEq

/-- `xs[i]` for an integer: from the end for negative ones. (`appliance_simulators.py:775-782`) -/
def pyGetInt {α : Type} (xs : List α) (i : Int) : Except PyErr α :=
  if 0 ≤ i then pyGet xs i.toNat else if 0 ≤ i + xs.length then pyGet xs (i + xs.length).toNat else .error .indexError

/-- The conversion of a float to an integer array: truncation. (`appliance_simulators.py:603-636`) -/
def truncRat (x : Rat) : Int := if 0 ≤ x then ⌊x⌋ else ⌈x⌉

namespace Appl

/-! ## AppliancesSimulator -/

/-- `get_current_usage`, `appliance_simulators.py:661-671`. -/
def usage (a : Appl) (s : ApplState) : Bool := decide (s.left > 0) && a.owned

/-- `get_mask_available_appliances`, `appliance_simulators.py:553-569`. -/
def available (a : Appl) (s : ApplState) : Bool := a.owned && decide (s.left ≤ 0) && decide (s.refresh ≤ 0)

/-- `update_iteration_variables`, `appliance_simulators.py:655-659`. -/
def decrement (s : ApplState) : ApplState :=
  { left := if s.left > 0 then s.left - 1 else s.left, refresh := if s.refresh > 0 then s.refresh - 1 else s.refresh }

/-- One entry of `_get_variable_loads_consumptions`, `appliance_simulators.py:747-784`, given the usage. -/
def variableLoad (a : Appl) (used : Bool) (s : ApplState) : Except PyErr Rat :=
  if used && a.varLoad then pyGetInt a.row (truncRat (a.loadDuration - s.left)) else .ok 0

/-- One entry of `get_current_power_consumptions`, `appliance_simulators.py:673-701`, given the usage. -/
def power (a : Appl) (used : Bool) (s : ApplState) : Except PyErr Rat := do
  let standby := (if used then 0 else 1) * a.standby * (if a.owned then 1 else 0)
  let constant := (if used then 1 else 0) * a.meanPower * (if a.varLoad then 0 else 1)
  let load ← a.variableLoad used s
  return standby + constant + load

/-- `get_power_demand`, `appliance_simulators.py:786-788`, of a household. -/
def powerDemand (hh : List (Appl × ApplState)) : Except PyErr Rat := do
  let ps ← hh.mapM fun x => x.1.power (x.1.usage x.2) x.2
  return ps.sum

/-- One entry of `get_current_water_consumptions`, `appliance_simulators.py:800-817`. -/
def water (a : Appl) (s : ApplState) : Rat := (if a.usage s then 1 else 0) * a.flow

/-- `get_dhw_heating_demand`, `appliance_simulators.py:819-845`, from the consumptions of a household. -/
def dhwDemand (consumptions : List Rat) : Rat :=
  let v := consumptions.sum / 1000 / 60
  let m := 1000 * v
  4200 * m

/-- `_switch_on_variable_loads` and `_switch_on_constant_loads`, `appliance_simulators.py:603-636`; `d` is the duration of `sample_durations`. -/
def switchOn (a : Appl) (d : Rat) : ApplState :=
  if a.varLoad then { left := a.loadDuration, refresh := truncRat (a.loadDuration + a.delay) } else { left := d, refresh := truncRat (d + a.delay) }

/-- `sample_durations`, `appliance_simulators.py:703-744`; `volume` is the draw of `np.random.poisson`. -/
def sampleDuration (a : Appl) (volume : Nat) : Rat :=
  if a.loadDuration > 0 then a.loadDuration else if a.usesWater then volume / a.flow else a.meanDuration

/-! ## OccupancyApplianceSimulator -/

/-- The inputs of a step for this appliance: the number of active occupants, the product of the switch-on probability and the
probability of the activity, the uniform draw and the volume drawn for water fixtures. (`appliance_simulators.py:1216-1252`) -/
structure OccInput where
  active : Nat
  prob : Rat
  u : Rat
  volume : Nat

/-- `OccupancyApplianceSimulator.switch_on` and `_switch_on_water_fixtures`, `appliance_simulators.py:1079-1131`. -/
def occSwitchOn (a : Appl) (volume : Nat) : ApplState :=
  let d := if a.usesWater then volume / a.flow else a.sampleDuration volume
  { left := d, refresh := truncRat (d + a.delay) }

/-- `switch_off_inactive`, `appliance_simulators.py:1133-1153`. -/
def switchOffInactive (a : Appl) (active : Nat) (s : ApplState) : ApplState :=
  if active = 0 && a.switchOff then { left := 0, refresh := min s.refresh a.delay } else s

/-- `step`, `appliance_simulators.py:1216-1252`, with `get_switchon_probs`, 1181-1214. -/
def occStep (a : Appl) (s : ApplState) (i : OccInput) : ApplState :=
  let p := (if a.available s then 1 else 0) * i.prob
  let s := if i.u < p then a.occSwitchOn i.volume else s
  decrement (a.switchOffInactive i.active s)

/-- Several steps. (`appliance_simulators.py:1216-1252`) -/
def occRun (a : Appl) (s : ApplState) : List OccInput → ApplState
  | [] => s
  | i :: is => a.occRun (a.occStep s i) is

/-- `get_current_water_consumptions`, `appliance_simulators.py:1155-1178`. -/
def occWater (a : Appl) (s : ApplState) : Rat :=
  (if s.left ≥ 1 then 1 else 0) * a.flow + s.left * (if s.left > 0 ∧ s.left < 1 then 1 else 0) * a.flow

/-! ## ActivityApplianceSimulator -/

/-- The state of an appliance: `_is_used`, and the number of residents that performed the activity of the appliance in the last step. (`appliance_simulators.py:1375-1406`) -/
structure ActState where
  base : ApplState
  used : Bool
  performing : Nat
deriving DecidableEq

/-- `switch_on` with `_switch_on_constant_loads` and `_switch_on_variable_loads`, `appliance_simulators.py:571-601, 1477-1483`. -/
def actSwitchOn (a : Appl) (s : ActState) : ActState :=
  if a.varLoad then { s with base := { left := a.loadDuration, refresh := truncRat (a.loadDuration + a.delay) }, used := true } else { s with used := true }

/-- `update_iteration_variables`, `appliance_simulators.py:1461-1475`. -/
def actDecrement (a : Appl) (s : ApplState) : ApplState :=
  let s' := decrement s
  if s.left > 0 ∧ ¬ s'.left > 0 ∧ a.varLoad = true then { left := s'.left + a.loadDuration, refresh := s'.refresh + a.loadDuration } else s'

/-- `initialize_starting_state`, `appliance_simulators.py:1375-1406`, for an appliance whose activity is in the dictionary and not always on. `refresh` is the initial delay. -/
def actInit (a : Appl) (refresh : Int) (performing : Nat) : ActState :=
  let s : ActState := { base := { left := 0, refresh := refresh }, used := false, performing := performing }
  let s := if performing > 0 then a.actSwitchOn s else s
  { s with base := a.actDecrement s.base }

/-- `initialize_starting_state` for an always-on appliance; `start` is the draw of `randint(1, loadDuration)` in `_initialize_real_loads`,
`appliance_simulators.py:532-551`; `used` is set at the end. -/
def actInitAlwaysOn (a : Appl) (refresh : Int) (start : Nat) : ActState :=
  { base := a.actDecrement { left := if a.loadDuration > 0 then start else 0, refresh := refresh }, used := true, performing := 0 }

/-- `step`, `appliance_simulators.py:1416-1459`, for an appliance whose activity is in the dictionary; `n` residents perform it. -/
def actStep (a : Appl) (s : ActState) (n : Nat) : ActState :=
  let change := decide (s.performing ≠ n)
  let s1 := if change && decide (n = 0) && a.switchOff then { s with used := false } else s
  let s2 := if change && decide (s.performing = 0) then a.actSwitchOn s1 else s1
  { s2 with performing := n, base := a.actDecrement s2.base }

/-- `step` for an always-on appliance: no activity concerns it. (`appliance_simulators.py:1416-1459`) -/
def actStepAlwaysOn (a : Appl) (s : ActState) : ActState := { s with base := a.actDecrement s.base }

/-- Several steps. (`appliance_simulators.py:1416-1459`) -/
def actRun (a : Appl) (s : ActState) : List Nat → ActState
  | [] => s
  | n :: ns => a.actRun (a.actStep s n) ns

/-- `get_current_usage`, `appliance_simulators.py:1490-1493`. -/
def actUsage (a : Appl) (s : ActState) : Bool := s.used && a.owned

/-! ## ProbabiliticActivityAppliancesSimulator -/

/-- The state: `n_steps_left`, `n_steps_till_refresh`, the number that performed the activity, and the value of the cached getter `get_current_usage`, if it was called since the last step. (`appliance_simulators.py:1753-1762`) -/
structure ProbState where
  base : ApplState
  performing : Nat
  cache : Option Bool
deriving DecidableEq

/-- The inputs of a step: the number performing the activity, the probability, the uniform draw and the volume drawn. (`appliance_simulators.py:1764-1848`) -/
structure ProbInput where
  n : Nat
  prob : Rat
  u : Rat
  volume : Nat

/-- `step`, `appliance_simulators.py:1764-1848`, for an appliance whose activity is in the dictionary and that does not start after another activity or appliance; `_compute_switch_on_probs`, 1856-1872; `switch_off`,
1887-1893. The value of `get_current_usage` is cached by the first call: before the step, or (as for
data with appliances that follow others) right after the decrement. `Simulator.step` clears the cache. -/
def probStep (a : Appl) (s : ProbState) (i : ProbInput) : ProbState :=
  let b := decrement s.base
  let used := s.cache.getD (a.usage b)
  let b := if decide (s.performing ≠ i.n) && decide (i.n = 0) && a.switchOff then { left := 0, refresh := a.delay } else b
  let p := (if used then 0 else 1) * i.prob
  let b := if i.n > 0 && decide (i.u < p) then a.switchOn (a.sampleDuration i.volume) else b
  { base := b, performing := i.n, cache := none }

/-- A call of `get_current_usage` (or of a getter that uses it) between two steps. (`appliance_simulators.py:661-671`) -/
def probGet (a : Appl) (s : ProbState) : ProbState := { s with cache := some (s.cache.getD (a.usage s.base)) }

/-- Several steps. (`appliance_simulators.py:1764-1848`) -/
def probRun (a : Appl) (s : ProbState) : List ProbInput → ProbState
  | [] => s
  | i :: is => a.probRun (a.probStep s i) is

/-- Several steps; before those marked by `true` the user, or a logger, calls a getter. (`appliance_simulators.py:1764-1848`) -/
def probRunObserved (a : Appl) (s : ProbState) : List (Bool × ProbInput) → ProbState
  | [] => s
  | i :: is => a.probRunObserved (a.probStep (if i.1 then a.probGet s else s) i.2) is

end Appl

/-! ## The activity profiles of OccupancyApplianceSimulator -/

/-- The clock, the day for which the profiles were loaded, the position in `activities_pdf_iterator` and the row in use (`current_activity_pdf`). (`appliance_simulators.py:956-1056`) -/
structure PdfClock where
  time : Int
  day : Int
  pos : Nat
  current : Option Nat
deriving DecidableEq

namespace PdfClock

/-- Number of steps of ten minutes in a day, the length of the profiles. (`appliance_simulators.py:1011-1056`) -/
def ROWS : Nat := 144

/-- `initialize_starting_state`, `appliance_simulators.py:956-981`, up to the steps of the initialisation; the profiles are those of the day of `start`;
`TimeAwareSimulator.initialize_starting_state`, `base_simulators.py:758-791`, sets the clock to `initDt + remainder`. Steps last a minute. -/
def init (refresh start : Int) : PdfClock :=
  let d := dayNumber start * DAY + refresh
  let initDt := if d > start then d - DAY else d
  { time := initDt + (start - initDt).fmod 60000000, day := dayNumber start, pos := 0, current := none }

/-- The number of steps of the initialisation. (`base_simulators.py:758-791`) -/
def initSteps (refresh start : Int) : Nat :=
  let d := dayNumber start * DAY + refresh
  let initDt := if d > start then d - DAY else d
  ((start - initDt).tdiv 60000000).toNat

/-- `datetime.minute`. (`appliance_simulators.py:1216-1252`) -/
def minute (t : Int) : Int := timeOfDay t % HOUR / 60000000

/-- `step`, `appliance_simulators.py:1216-1252`: the callback (1004-1009), the update of the profile, and the clock. -/
def step (refresh : Int) (s : PdfClock) : PdfClock :=
  let s := if firesBeforeRefresh refresh s.time 60000000 then { s with day := dayNumber (s.time + 60000000), pos := 0 } else s
  let s := if minute s.time % 10 = 0 then { s with current := some s.pos, pos := (s.pos + 1) % ROWS } else s
  { s with time := s.time + 60000000 }

/-- Several steps. (`appliance_simulators.py:1216-1252`) -/
def run (refresh : Int) (s : PdfClock) : Nat → PdfClock
  | 0 => s
  | n + 1 => (run refresh s n).step refresh

end PdfClock

end Demod
