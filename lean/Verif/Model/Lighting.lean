import Verif.Model.Appliance
import Verif.Model.Heating

/-!
# Lighting (`demod/simulators/lighting_simulators.py`) and the CREST washing machine (`demod/simulators/crest_simulators.py`)

The bulbs of a household are a list; random draws are arguments; numbers are rationals, NaN is `none`.
-/

namespace Demod

/-! ## FisherLightingSimulator -/

/-- The parameters from `load_fisher_lighting`. (`lighting_simulators.py:47-82`) -/
structure Fisher where
  min : Rat
  max : Rat
  individual : Rat

/-- `calculate_light_usage_value`, `lighting_simulators.py:103-118`. A division by zero is not modelled: the thresholds differ. -/
def Fisher.usage (f : Fisher) (irradiance : Rat) : Rat := npClip ((f.max - irradiance) / (f.max - f.min)) 0 1

/-- `get_power_consumption`, `lighting_simulators.py:121-133`: one value per entry of `active_occupancy`. -/
def Fisher.power (f : Fisher) (active : List Rat) (irradiance : Rat) : List Rat := active.map fun a => a * f.individual * f.usage irradiance

/-- `initialize_starting_state`, `lighting_simulators.py:84-101`: the initial occupancy. `np.ones_like(self.n_households)` is a single number, modelled as a list of length one. -/
def Fisher.initialActive (_households : Nat) : Option (List Rat) → List Rat
  | none => [1]
  | some l => l

/-! ## CrestLightingSimulator -/

/-- A bulb; `power` is `none` (NaN) for places without bulb in `load_bulbs_config`. (`lighting_simulators.py:226-246`) -/
structure Bulb where
  power : Option Rat
  relativeUse : Rat

/-- `np.array(nan, int)` on x86 (`lighting_simulators.py:226-246`). -/
def NAN_AS_INT : Int := -9223372036854775808

/-- `initialize_bulbs`, `lighting_simulators.py:226-246`: `bulbs_power * 0` as integers. -/
def Bulb.initial (b : Bulb) : Int := if b.power.isSome then 0 else NAN_AS_INT

/-- The draws for a bulb in a step: for the exception of the irradiance, for the switch-on, and the duration of `draw_random_durations`. (`lighting_simulators.py:400-449`) -/
structure BulbDraw where
  u1 : Rat
  u2 : Rat
  duration : Rat

/-- The parameters of a household. (`lighting_simulators.py:172-246`) -/
structure Light where
  calibration : Rat
  effective : List Rat
  threshold : Rat

/-- `step` of one bulb, `lighting_simulators.py:400-449`; the durations are truncated when they are written to the integer array. -/
def Light.bulbStep (l : Light) (b : Bulb) (active : Nat) (effective irradiance : Rat) (d : BulbDraw) (left : Int) : Int :=
  let left := if left > 0 then left - 1 else left
  let low := decide (irradiance < l.threshold) || decide (d.u1 < 1 / 20)
  let p := effective * b.relativeUse * l.calibration
  let left := if (low && decide (left = 0)) && decide (d.u2 < p) then truncRat d.duration else left
  if active = 0 then 0 else left

/-- `step` of a household. (`lighting_simulators.py:400-449`) -/
def Light.step (l : Light) (bulbs : List (Bulb × Int)) (active : Nat) (irradiance : Rat) (draws : List BulbDraw) : Except PyErr (List (Bulb × Int)) := do
  let effective ← pyGet l.effective active
  return (bulbs.zip draws).map fun x => (x.1.1, l.bulbStep x.1.1 active effective irradiance x.2 x.1.2)

/-- `get_electric_consumptions`, `lighting_simulators.py:389-392`: `np.nansum`. -/
def lightPower (bulbs : List (Bulb × Int)) : Rat := (bulbs.map fun x => x.1.power.getD 0 * (if x.2 > 0 then 1 else 0)).sum

/-! ## CREST washing machine -/

/-- `_compute_washing_machine_power`, `crest_simulators.py:637-689`, for one machine; the assignments with masks follow each other, the last one wins. `length` is 138 for WASHING_MACHINE and 198 for WASHER_DRYER. -/
def washingPower (length : Nat) (standby left : Rat) : Rat :=
  let t := length - left
  let p : Rat := 0
  let p := if t ≤ 8 then 73 else p
  let p := if t > 8 ∧ t ≤ 29 then 2056 else p
  let p := if t > 29 ∧ t ≤ 81 then 73 else p
  let p := if t > 81 ∧ t ≤ 92 then 73 else p
  let p := if t > 92 ∧ t ≤ 94 then 250 else p
  let p := if t > 94 ∧ t ≤ 105 then 73 else p
  let p := if t > 105 ∧ t ≤ 107 then 250 else p
  let p := if t > 107 ∧ t ≤ 118 then 73 else p
  let p := if t > 118 ∧ t ≤ 120 then 250 else p
  let p := if t > 120 ∧ t ≤ 131 then 73 else p
  let p := if t > 131 ∧ t ≤ 133 then 250 else p
  let p := if t > 133 ∧ t ≤ 138 then 568 else p
  let p := if t > 138 ∧ t ≤ 198 then 2500 else p
  if left = 0 then standby else p

end Demod
