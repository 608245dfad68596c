import Verif.Model.Sampling
import Verif.Model.Heating

/-! # Set points of the thermostats (`demod/datasets/Germany/loader.py`, `demod/simulators/heating_simulators.py`)

Floating point numbers are modelled by rationals, so `np.cumsum` is exact. -/

namespace Demod

/-- The dictionary of `load_thermostat_dict`. (`Germany/loader.py:211-285`) -/
structure ThermostatDict where
  homeCdf : List Rat
  homeValues : List Rat
  waterCdf : List Rat
  waterValues : List Rat
  emitter : Rat
  deadSpace : Rat
  deadWater : Rat
  deadEmitter : Rat
deriving DecidableEq

/-- `GermanDataHerus._parse_thermostat_dict`, `Germany/loader.py:211-285`; the subgroup is not used. -/
def germanThermostat : ThermostatDict where
  homeCdf := cumsum [1/100, 2/100, 1/100, 3/100, 4/100, 8/100, 16/100, 14/100, 16/100, 16/100, 9/100, 5/100, 3/100, 1/100, 1/100]
  homeValues := [13, 14, 15, 16, 17, 18, 19, 20, 21, 22, 23, 24, 25, 26, 27]
  waterCdf := cumsum [4/100, 4/100, 11/100, 8/100, 13/100, 9/100, 14/100, 11/100, 8/100, 10/100, 4/100, 4/100]
  waterValues := [42, 43, 45, 47, 49, 51, 53, 55, 57, 59, 61, 62]
  emitter := 50
  deadSpace := 1
  deadWater := 5
  deadEmitter := 5

/-- `target_temperatures`, and the dictionaries of temperatures that are compared with it: one array for the space heating (`interior`), one for the hot water (`cylinder`) and one for the emitter. (`heating_simulators.py:731-785`) -/
structure SetPoints where
  space : List Rat
  dhw : List Rat
  emitter : List Rat
deriving DecidableEq

/-- `values[r]` for an array of indices. (`heating_simulators.py:770-780`) -/
def takeValues (values : List Rat) (r : List Nat) : Except PyErr (List Rat) :=
  r.mapM fun k => match values[k]? with
    | some v => .ok v
    | none => .error .indexError

/-- `initialize_target_temperatures`, `heating_simulators.py:761-786`; `home` and `water` are the draws of the two samplings, one per household. -/
def initTargets (d : ThermostatDict) (home water : List Rat) : Except PyErr SetPoints := do
  let r ← mcFrom1dCdf d.homeCdf home
  let space ← takeValues d.homeValues r
  let r ← mcFrom1dCdf d.waterCdf water
  let dhw ← takeValues d.waterValues r
  .ok { space := space, dhw := dhw, emitter := (List.replicate home.length 1).map fun one => d.emitter * one }

/-- `initialize_starting_state`, `heating_simulators.py:718-759`: the thermostat states of the space heating, the hot water and the emitter, that are on where the temperature is below the target. The arrays of
given temperatures have one value per household. -/
def initStates (t : SetPoints) (initial : Option SetPoints) : List Bool × List Bool × List Bool :=
  let temperatures := match initial with
    | none => t
    | some x => x
  (List.zipWith (fun a b => decide (a < b)) temperatures.space t.space,
   List.zipWith (fun a b => decide (a < b)) temperatures.dhw t.dhw,
   List.zipWith (fun a b => decide (a < b)) temperatures.emitter t.emitter)

/-- The deadbands that `Thermostats.step` reads. (`heating_simulators.py:831-906`) -/
def ThermostatDict.deadbands (d : ThermostatDict) : Targets := { dhw := d.deadWater, spaceHeating := d.deadSpace, emitter := d.deadEmitter }

/-- Several steps of the thermostats of a household, without new targets. (`heating_simulators.py:811-906`) -/
def thermostatsRun (d : ThermostatDict) (target : Targets) (s : ThermostatStates) (Ts : List Temps) : ThermostatStates :=
  Ts.foldl (fun s T => thermostatsStep s T target d.deadbands) s

end Demod
