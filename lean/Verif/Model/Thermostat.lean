import Verif.Model.Time
import Mathlib.Algebra.Order.Field.Rat
import Mathlib.Data.Rat.Cast.Order

/-!
# Occupant thermostats (`VariableThermostatTemperatureSimulator`, `demod/simulators/heating_simulators.py`, lines 26-370)

All operations are element-wise over the households: the model is that of one household. The time is in microseconds, as in `Verif.Model.Time`. Numbers are rationals.
-/

namespace Demod

/-- The six patterns, `heating_simulators.py:60-69`. -/
inductive HeatPattern where
  | coolConservers
  | steadyAndSavvy
  | fluctuators
  | sizzlers
  | onOffSwitchers
  | toastyCruisers
deriving DecidableEq

/-- `LOW_T`, `heating_simulators.py:58`. -/
def LOW_T : Rat := 16

/-- `mean_T`, `heating_simulators.py:71`. -/
def HeatPattern.meanT : HeatPattern → Rat
  | .coolConservers => 17
  | .steadyAndSavvy => 37 / 2
  | .fluctuators => 20
  | .sizzlers => 23
  | .onOffSwitchers => 20
  | .toastyCruisers => 21

/-- `std_T`, `heating_simulators.py:72`. -/
def HeatPattern.maxDeviation : HeatPattern → Rat
  | .coolConservers => 3 / 2
  | .steadyAndSavvy => 1
  | .fluctuators => 2
  | .sizzlers => 2
  | .onOffSwitchers => 1 / 2
  | .toastyCruisers => 1

/-- The entries of `fixed_pattern_dict` that are used. (`heating_simulators.py:82-145`) -/
structure FixedPattern where
  wakeHour : Nat
  wakeMinute : Nat
  changeDuringDay : Bool
  leavingHour : Nat
  leavingMinute : Nat
  returningHour : Nat
  returningMinute : Nat
  bedHour : Nat
  bedMinute : Nat
deriving DecidableEq

/-- The draws of `initialize_fixed_patterns`: the results of `monte_carlo_from_1d_pdf` with 4, 6, 2, 20, 20, 5 and 6 outcomes (`heating_simulators.py:82-145`). -/
structure FixedDraws where
  wakeHour : Fin 4
  wakeMinute : Fin 6
  change : Fin 2
  leaving : Fin 20
  returning : Fin 20
  bedHour : Fin 5
  bedMinute : Fin 6

/-- `initialize_fixed_patterns`, `heating_simulators.py:82-145`. -/
def FixedPattern.create (d : FixedDraws) : FixedPattern :=
  let wakeHour := 6 + d.wakeHour.val
  let wakeMinute := 10 * d.wakeMinute.val
  let beforeLeaving := 30 + 10 * d.leaving.val
  let leavingHour := (wakeHour + (wakeMinute + beforeLeaving) / 60) % 24
  let leavingMinute := (wakeMinute + beforeLeaving) % 60
  let beforeReturning := 240 + 10 * d.returning.val
  { wakeHour := wakeHour, wakeMinute := wakeMinute, changeDuringDay := decide (d.change.val ≠ 0), leavingHour := leavingHour, leavingMinute := leavingMinute
    returningHour := (leavingHour + (leavingMinute + beforeReturning) / 60) % 24
    returningMinute := (leavingMinute + beforeReturning) % 60
    bedHour := (20 + d.bedHour.val) % 24
    bedMinute := 10 * d.bedMinute.val }

/-- The state of a household in the simulator. (`heating_simulators.py:181-213`) -/
structure VarThermostat where
  pattern : HeatPattern
  fixed : FixedPattern
  time : Int
  lastOccupancy : Nat
  lastActive : Nat
  temperature : Rat
deriving DecidableEq

/-- The inputs of `step` for a household, with the two draws of `update_fluctuators`: whether comfort is changed (`binomial`) and the integer of
`randint(0, 2 * max_deviation + 1)`. (`heating_simulators.py:215-283`) -/
structure VarInput where
  occupancy : Nat
  active : Nat
  change : Bool
  increase : Nat

namespace VarThermostat

/-- `__init__` and `initialize_starting_state`, `heating_simulators.py:181-213`. -/
def create (pattern : HeatPattern) (d : FixedDraws) (start : Int) (occupancy active : Nat) : VarThermostat :=
  { pattern := pattern, fixed := FixedPattern.create d, time := start, lastOccupancy := occupancy, lastActive := active, temperature := pattern.meanT }

/-- `update_fluctuators` for a household of the pattern, `heating_simulators.py:225-283`. -/
def updateFluctuator (s : VarThermostat) (i : VarInput) : Rat :=
  let leaving := decide (i.occupancy = 0) && decide (s.lastOccupancy > 0)
  let arrival := decide (i.occupancy > 0) && decide (s.lastOccupancy = 0)
  let goBed := decide (i.active = 0) && decide (s.lastActive > 0) && !arrival && !leaving
  let wakeUp := decide (i.active > 0) && decide (s.lastActive = 0) && !arrival && !leaving
  let t := if leaving then LOW_T else s.temperature
  let t := if arrival then s.pattern.meanT + s.pattern.maxDeviation else t
  let t := if goBed then s.pattern.meanT else t
  let t := if wakeUp then s.pattern.meanT + s.pattern.maxDeviation else t
  if decide (i.active > 0) && i.change then s.pattern.meanT + i.increase / 2 else t

/-- `update_onoff_switchers`, `heating_simulators.py:285-304`. -/
def updateSwitcher (s : VarThermostat) (i : VarInput) : Rat := if i.occupancy > 0 then s.pattern.meanT else LOW_T

/-- `time.minute`. (`heating_simulators.py:306-345`) -/
def minuteOf (t : Int) : Int := t % HOUR / 60000000

/-- `update_constant_patterns`, `heating_simulators.py:306-345`; `t` is the new time. -/
def updateConstant (s : VarThermostat) (t : Int) : Rat :=
  let isNow := fun (hour minute : Nat) => decide ((hour : Int) = hourOf t) && decide ((minute : Int) = minuteOf t)
  let temp := if s.fixed.changeDuringDay && isNow s.fixed.leavingHour s.fixed.leavingMinute then s.pattern.meanT - s.pattern.maxDeviation else s.temperature
  let temp := if isNow s.fixed.returningHour s.fixed.returningMinute then s.pattern.meanT + s.pattern.maxDeviation else temp
  let temp := if isNow s.fixed.bedHour s.fixed.bedMinute then s.pattern.meanT else temp
  if isNow s.fixed.wakeHour s.fixed.wakeMinute then s.pattern.meanT + s.pattern.maxDeviation else temp

/-- `step`, `heating_simulators.py:215-223`, with the default increment of ten minutes, and `update_thermostat_temperatures`, `heating_simulators.py:347-362`. -/
def step (s : VarThermostat) (i : VarInput) : VarThermostat :=
  let t := s.time + 600000000
  { s with
    time := t
    temperature := match s.pattern with
      | .coolConservers => s.updateFluctuator i
      | .fluctuators => s.updateFluctuator i
      | .sizzlers => s.updateFluctuator i
      | .onOffSwitchers => s.updateSwitcher i
      | .steadyAndSavvy => s.updateConstant t
      | .toastyCruisers => s.updateConstant t
    lastOccupancy := i.occupancy, lastActive := i.active }

/-- Several steps. (`heating_simulators.py:215-223`) -/
def run (s : VarThermostat) : List VarInput → VarThermostat
  | [] => s
  | i :: is => (s.step i).run is

end VarThermostat

end Demod
