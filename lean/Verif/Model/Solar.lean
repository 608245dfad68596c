import Verif.Model.Climate
import Verif.Model.Sampling
import Mathlib.Analysis.SpecialFunctions.Trigonometric.Inverse
import Mathlib.Analysis.SpecialFunctions.Exp

/-!
# The irradiance simulator (`CrestIrradianceSimulator`, `demod/simulators/weather_simulators.py:45-276`)

Real numbers instead of floats: rounding, which could bring the argument of `math.asin` above 1, is not modelled. The step size is a minute.
-/

namespace Demod

open Real

/-- `load_geographic_data`, `weather_simulators.py:88-95`. -/
structure Geography where
  longitude : ℝ
  latitude : ℝ
  meridian : ℝ
  summerTime : Bool

/-- `current_time.timetuple().tm_yday`, `weather_simulators.py:161-162`. -/
def dayOfYear (t : Int) : Nat :=
  let d := dateAt t
  ((List.range (d.month - 1)).map fun m => daysInMonth d.year (m + 1)).sum + d.day

/-- `current_time.minute`. (`weather_simulators.py:205-276`) -/
def minuteOf (t : Int) : Int := timeOfDay t % HOUR / MINUTE

/-- `is_summer_time`, `weather_simulators.py:167-171`. -/
def isSummerTime (t : Int) : Bool := decide (dayOfYear t ≥ 87) && decide (dayOfYear t < 304)

/-- `_calculate_global_irradiance`, `weather_simulators.py:173-190`: the time correction factor. -/
noncomputable def timeCorrection (g : Geography) (t : Int) : ℝ :=
  let b : ℝ := 360 * ((dayOfYear t : ℝ) - 81) / 364
  let equationOfTime := 987 / 100 * sin (2 * b * π / 180) - 753 / 100 * cos (b * π / 180) - 3 / 2 * sin (b * π / 180)
  4 * (g.longitude - g.meridian) + equationOfTime

/-- `math.asin`: `ValueError` outside of its domain. (`weather_simulators.py:205-276`) -/
noncomputable def pyAsin (x : ℝ) : Except PyErr ℝ :=
  open Classical in if -1 ≤ x ∧ x ≤ 1 then .ok (arcsin x) else .error .valueError

/-- The computation of the irradiance in `step`, `weather_simulators.py:208-274`, at the time `t`, with the time correction factor `tcf` and the clearness `k`. -/
noncomputable def solarIrradiance (g : Geography) (tcf : ℝ) (t : Int) (k : ℝ) : Except PyErr ℝ := do
  let day : ℝ := dayOfYear t
  let localHour : Int := if g.summerTime && isSummerTime t then hourOf t - 1 else hourOf t
  let hoursBeforeNoon : ℝ := 12 - ((localHour : ℝ) + (minuteOf t : ℝ) / 60 + tcf / 60)
  let get : ℝ := 1367 * (1 + 34 / 1000 * cos (2 * π * day / (36525 / 100)))
  let depth : ℝ := 174 / 1000 + 35 / 1000 * sin (2 * π * (day - 100) / 365)
  let hourAngle := 15 * hoursBeforeNoon
  let declination := 2345 / 100 * sin (2 * π * (284 + day) / (36525 / 100))
  let a ← pyAsin (cos (g.latitude * π / 180) * cos (declination * π / 180) * cos (hourAngle * π / 180) + sin (g.latitude * π / 180) * sin (declination * π / 180))
  let altitude := 180 / π * a
  let clearsky := open Classical in if altitude > 0 then get * exp ((0 - depth) / sin (altitude * π / 180)) else 0
  return clearsky * k * sin (altitude * π / 180)

/-- The data of the simulator. (`weather_simulators.py:70-125`) -/
structure SolarData where
  geo : Geography
  cdf : List (List Rat)
  values : List ℝ

/-- The state of the simulator. (`weather_simulators.py:127-150`) -/
structure Solar where
  clock : Int
  clearness : Nat
  tcf : ℝ
  irradiance : ℝ

namespace SolarData

/-- `step`, `weather_simulators.py:205-276`, with the callback; `u` is the draw of `_next_clearness`. -/
noncomputable def step (D : SolarData) (s : Solar) (u : Rat) : Except PyErr Solar := do
  let state ← mcCdf (← pyGet D.cdf s.clearness) u
  let k ← pyGet D.values state
  let irr ← solarIrradiance D.geo s.tcf s.clock k
  let clock := s.clock + MINUTE
  return { clock := clock, clearness := state, irradiance := irr, tcf := if firesAfterNextDay s.clock MINUTE then timeCorrection D.geo clock else s.tcf }

/-- One step for each draw. (`weather_simulators.py:205-276`) -/
noncomputable def run (D : SolarData) : List Rat → Solar → Except PyErr Solar
  | [], s => .ok s
  | u :: us, s => do D.run us (← D.step s u)

/-- `initialize_starting_state`, `weather_simulators.py:127-150`: from midnight, with one draw for each minute until the start (further draws are not used); `clearness` is the index of the initial clearness. -/
noncomputable def create (D : SolarData) (start : Int) (clearness : Nat) (us : List Rat) : Except PyErr Solar := do
  let init ← initDatetime start (.time 0)
  let delta := start - init
  let s : Solar := { clock := init + delta.fmod MINUTE, clearness := clearness, tcf := timeCorrection D.geo start, irradiance := 0 }
  let s ← D.run (us.take (delta.tdiv MINUTE).toNat) s
  return { s with irradiance := 0 }

end SolarData

end Demod
