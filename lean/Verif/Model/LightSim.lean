import Verif.Model.Bulbs
import Verif.Model.ProbActSim

/-!
# The whole `CrestLightingSimulator` (`demod/simulators/lighting_simulators.py` 149-449)

Construction, steps, getters and the values that a logger records, with the arrays of households and bulbs; `Model/Lighting.lean` follows the bulbs of one household. The random draws are arguments; numbers are rationals, NaN is
`none`. The active occupancy has one entry per household: numpy would also accept some other arrays, which here are a `ValueError`.
-/

namespace Demod

/-- What `load_crest_lighting` returns for the steps, `lighting_simulators.py:205-217`. -/
structure LightData where
  calibration : Rat
  effective : List Rat
  cdf : List Rat
  low : List Rat
  high : List Rat

/-- What the data say about the bulbs and the thresholds: `load_installed_bulbs_stats`, `load_bulbs`, `load_bulbs_config` and `load_crest_lighting`, `lighting_simulators.py:277-347`. -/
structure LightSource where
  mean : Rat
  std : Rat
  consumptions : List Rat
  penetration : List Rat
  configurations : List (List (Option Rat))
  thresholdMean : Rat
  thresholdStd : Rat
  lighting : LightData

/-- The draws of the constructor, `lighting_simulators.py:292-375`: `z`, `u` for `'randn'`, `config` for `'config'`, the relative uses (`- 2.30258509299404 * np.log(r)`, a positive number) and the standard normal numbers for
the thresholds. -/
structure LightArgs where
  z : Nat → Rat
  u : Nat → Nat → Rat
  config : Nat → Nat
  relUse : Nat → Nat → Rat
  threshold : Nat → Rat

/-- The instance variables of the simulator, `lighting_simulators.py:192-224`. -/
structure LightSim where
  lighting : LightData
  bulbs : List (List (Option Rat))
  relUse : List (List Rat)
  threshold : List Rat
  left : List (List Int)

/-- The draws of a step, `lighting_simulators.py:379-449`: `np.random.uniform(size=bulbs_shape)`, `np.random.uniform(size=len(indices_bulb))` and those of `draw_random_durations`. -/
structure LightDraws where
  u1 : Nat → Nat → Rat
  u2 : Nat → Rat
  interval : Nat → Rat
  place : Nat → Rat

namespace LightSim

/-- `sample_bulbs_configuration`, `lighting_simulators.py:249-329`. -/
def sampleBulbs (src : LightSource) (algo : String) (n : Nat) (args : LightArgs) : Except PyErr (List (List (Option Rat))) :=
  if algo = "randn" then do
    let rows : List (List Rat) ← bulbsRandn src.mean src.std src.consumptions src.penetration ((List.range n).map args.z) args.u
    .ok (rows.map fun r => r.map some)
  else if algo = "config" then bulbsConfig src.configurations ((List.range n).map args.config)
  else .error .valueError

/-- `initialize_bulbs`, `lighting_simulators.py:226-246`: `np.array(self.bulbs_power * 0, int)`. -/
def initialBulbs (method : String) (bulbs : List (List (Option Rat))) : Except PyErr (List (List Int)) :=
  if method = "off" then .ok (bulbs.map fun r => r.map fun b => if b.isSome then 0 else NAN_AS_INT) else .error .valueError

/-- `__init__`, `lighting_simulators.py:172-224` with `sample_irradiance_threshold` (332-347) and `_generate_relative_use` (366-375), and the check of the number of households (`base_simulators.py:448-474`). -/
def create (src : LightSource) (n : Nat) (method algo : String) (args : LightArgs) : Except PyErr LightSim := do
  if n = 0 then .error .valueError
  else do
    let bulbs : List (List (Option Rat)) ← sampleBulbs src algo n args
    let use := bulbs.zipIdx.map fun r => r.1.zipIdx.map fun q => args.relUse r.2 q.2
    let threshold := (List.range n).map fun h => src.thresholdMean + src.thresholdStd * args.threshold h
    let left : List (List Int) ← initialBulbs method bulbs
    .ok { lighting := src.lighting, bulbs := bulbs, relUse := use, threshold := threshold, left := left }

/-- `get_electric_consumptions`, `get_power_demand` and `get_thermal_gains`, `lighting_simulators.py:389-398`: `np.nansum`. -/
def powerDemand (s : LightSim) : List Rat := (s.bulbs.zip s.left).map fun r => ((r.1.zip r.2).map fun q => q.1.getD 0 * (if q.2 > 0 then 1 else 0)).sum

/-- `probs_switch_on` of a bulb, `lighting_simulators.py:431-436`. -/
def prob (s : LightSim) (effective : List Rat) (q : Nat × Nat) : Rat := effective.getD q.1 0 * (s.relUse.getD q.1 []).getD q.2 0 * s.lighting.calibration

/-- `step` after the base class's, `lighting_simulators.py:412-449`, with `active_to_effective` (350-364): the durations are truncated when they are written to the array of integers. -/
def update (s : LightSim) (active : List Nat) (irradiance : Rat) (d : LightDraws) : Except PyErr LightSim := do
  let left := s.left.map fun r => r.map fun x => if x > 0 then x - 1 else x
  let effective : List Rat ← active.mapM fun k => pyGet s.lighting.effective k
  if active.length ≠ s.threshold.length then .error .valueError
  else do
    let free := trueAt (left.zipIdx.map fun r => r.1.zipIdx.map fun q => (decide (irradiance < s.threshold.getD r.2 0) || decide (d.u1 r.2 q.2 < 1 / 20)) && decide (q.1 = 0))
    let on := ProbActSim.chosen d.u2 (s.prob effective) free
    let durations : List Rat ← (List.range on.length).mapM fun i => drawBulbDuration s.lighting.cdf s.lighting.low s.lighting.high (d.interval i) (d.place i)
    let left := setEntries left on (durations.map truncRat)
    .ok { s with left := (left.zip active).map fun q => if q.2 = 0 then q.1.map fun _ => 0 else q.1 }

/-- `step`, `lighting_simulators.py:400-449`: `super().step()` comes first, so that a logger visits (`base_simulators.py:519-532`) the simulator before it is updated; the second component is what `get_power_demand` gives it. -/
def step (s : LightSim) (active : List Nat) (irradiance : Rat) (d : LightDraws) : Except PyErr (LightSim × List Rat) := do
  let s' : LightSim ← s.update active irradiance d
  .ok (s', s.powerDemand)

/-- Several steps, with what they add to the log of `get_power_demand`. (`lighting_simulators.py:400-449`) -/
def run : LightSim → List (List Nat × Rat × LightDraws) → Except PyErr (LightSim × List (List Rat))
  | s, [] => .ok (s, [])
  | s, i :: is => do
    let r : LightSim × List Rat ← s.step i.1 i.2.1 i.2.2
    let q : LightSim × List (List Rat) ← run r.1 is
    .ok (q.1, r.2 :: q.2)

/-- The simulation and the whole log: `initialize_starting_state` (`lighting_simulators.py:222-224`) visits the simulator once (`base_simulators.py:509-514`). -/
def simulate (s0 : LightSim) (is : List (List Nat × Rat × LightDraws)) : Except PyErr (LightSim × List (List Rat)) := do
  let q : LightSim × List (List Rat) ← run s0 is
  .ok (q.1, s0.powerDemand :: q.2)

end LightSim

end Demod
