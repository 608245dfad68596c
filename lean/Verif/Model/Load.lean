import Verif.Model.Py
import Mathlib.Data.Rat.Defs

/-!
# LoadSimulator (`demod/simulators/load_simulators.py`)

The component simulators are arbitrary: types of states with step functions and getters. Arrays over households are functions `H → Rat`.
-/

namespace Demod

/-- The component simulators of a `LoadSimulator`. `Opt` are the optional inputs that are only passed on to the heating simulator. (`load_simulators.py:186-262`) -/
structure LoadParts (Climate Activity Appliances Light Heating Opt H : Type) where
  climateStep : Climate → Climate
  outside : Climate → Rat
  irradiance : Climate → Rat
  activityStep : Activity → Activity
  active : Activity → H → Nat
  occupancyGains : Activity → H → Rat
  applianceStep : Appliances → (H → Nat) → Appliances
  appliancePower : Appliances → H → Rat
  applianceGains : Appliances → H → Rat
  dhwDemand : Appliances → H → Rat
  lightStep : Light → (H → Nat) → Rat → Light
  lightPower : Light → H → Rat
  lightGains : Light → H → Rat
  heatingStep : Heating → (outside irradiance : Rat) → (dhw occupancy light appliances : H → Rat) → Opt → Heating
  heatingPower : Heating → H → Rat

/-- The state; `climate` and `heating` are `none` when they are not included. (`load_simulators.py:186-262`) -/
structure LoadState (Climate Activity Appliances Light Heating : Type) where
  step : Nat
  climate : Option Climate
  activity : Activity
  appliances : Appliances
  light : Light
  heating : Option Heating

variable {Climate Activity Appliances Light Heating Opt H : Type}

/-- The inputs of `LoadSimulator.step`. (`load_simulators.py:264-344`) -/
structure LoadInput (Opt : Type) where
  outside : Option Rat
  irradiance : Option Rat
  heating : Opt

/-- `LoadSimulator.step`, `load_simulators.py:264-344`. When an input is missing and there is no climate simulator, `ValueError` is raised before anything is changed. -/
def LoadParts.step (P : LoadParts Climate Activity Appliances Light Heating Opt H) (s : LoadState Climate Activity Appliances Light Heating) (i : LoadInput Opt) :
    Except PyErr (LoadState Climate Activity Appliances Light Heating) := do
  let climate := s.climate.map P.climateStep
  if climate.isNone && (i.irradiance.isNone || i.outside.isNone) then throw .valueError
  let outside ← match i.outside, climate with
    | some v, _ => pure v
    | none, some c => pure (P.outside c)
    | none, none => throw .attributeError
  let irradiance ← match i.irradiance, climate with
    | some v, _ => pure v
    | none, some c => pure (P.irradiance c)
    | none, none => throw .attributeError
  let activity := if s.step % 10 = 0 then P.activityStep s.activity else s.activity
  let active := P.active activity
  let appliances := P.applianceStep s.appliances active
  let light := P.lightStep s.light active irradiance
  let heating := s.heating.map fun h =>
    P.heatingStep h outside irradiance (P.dhwDemand appliances) (P.occupancyGains activity) (P.lightGains light) (P.applianceGains appliances) i.heating
  return { step := s.step + 1, climate := climate, activity := activity, appliances := appliances, light := light, heating := heating }

/-- Several steps. (`load_simulators.py:264-344`) -/
def LoadParts.run (P : LoadParts Climate Activity Appliances Light Heating Opt H) (s : LoadState Climate Activity Appliances Light Heating) :
    List (LoadInput Opt) → Except PyErr (LoadState Climate Activity Appliances Light Heating)
  | [] => .ok s
  | i :: is => do P.run (← P.step s i) is

/-- `get_power_demand`, `load_simulators.py:347-359`. -/
def LoadParts.power (P : LoadParts Climate Activity Appliances Light Heating Opt H) (s : LoadState Climate Activity Appliances Light Heating) (h : H) : Rat :=
  P.appliancePower s.appliances h + P.lightPower s.light h + (match s.heating with | some x => P.heatingPower x h | none => 0)

end Demod
