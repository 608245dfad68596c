import Verif.Model.Py
import Mathlib.Algebra.Order.Field.Rat
import Mathlib.Data.Rat.Cast.Order

/-!
# Heating (`demod/simulators/heating_simulators.py`, lines 382-2040)

All numpy operations of these classes are element-wise over the households: the model is that of one household. Numbers are rationals
instead of floats; where the code can produce NaN, a value is `none` for NaN.
-/

namespace Demod

/-- `np.clip(x, lo, hi)`: `minimum(maximum(x, lo), hi)`, also when `hi < lo`. (`heating_simulators.py:1499-1572`) -/
def npClip (x lo hi : Rat) : Rat := min (max x lo) hi

/-- `BuildingThermalDynamics.temperatures` (and `cold_water`). (`heating_simulators.py:501-553`) -/
structure Temps where
  building : Rat
  interior : Rat
  emitter : Rat
  cylinder : Rat
  coldWater : Rat
deriving DecidableEq

/-- The building of a household, `heating_simulators.py:458-495`, with the cylinder of its heating system, `454-456`. -/
structure Building where
  cB : Rat
  cI : Rat
  cEm : Rat
  hEm : Rat
  hBi : Rat
  hOb : Rat
  hV : Rat
  irradianceMultiplier : Rat
  hLoss : Rat
  cCyl : Rat
deriving DecidableEq

/-- The inputs of `BuildingThermalDynamics.step`. (`heating_simulators.py:555-643`) -/
structure BuildingInput where
  outside : Rat
  irradiance : Rat
  dhwDemand : Rat
  occupancyGains : Rat
  lightingGains : Rat
  applianceGains : Rat
  spaceHeating : Rat
  dhw : Rat
deriving DecidableEq

/-- `BuildingThermalDynamics.step`, `heating_simulators.py:555-643`; `dt` is `step_size.total_seconds()`. All changes are computed from the
old temperatures. -/
def Building.step (b : Building) (dt : Rat) (T : Temps) (i : BuildingInput) : Temps :=
  let phiS := i.irradiance * b.irradianceMultiplier
  let phiC := i.occupancyGains + i.lightingGains + i.applianceGains
  let dTb := dt / b.cB * (-(b.hOb + b.hBi) * T.building + b.hBi * T.interior + b.hOb * i.outside)
  let dTi := dt / b.cI * (b.hBi * T.building - (b.hV + b.hBi + b.hEm + b.hLoss) * T.interior + b.hV * i.outside + b.hEm * T.emitter +
    b.hLoss * T.cylinder + phiS + phiC)
  let dTem := dt / b.cEm * (b.hEm * T.interior - b.hEm * T.emitter + i.spaceHeating)
  let dTcyl := dt / b.cCyl * (b.hLoss * T.interior - (b.hLoss + i.dhwDemand) * T.cylinder + i.dhwDemand * T.coldWater + i.dhw)
  { building := T.building + dTb, interior := T.interior + dTi, emitter := T.emitter + dTem, cylinder := T.cylinder + dTcyl, coldWater := T.coldWater }

/-- Several steps of `BuildingThermalDynamics`. (`heating_simulators.py:555-643`) -/
def Building.run (b : Building) (dt : Rat) (T : Temps) : List BuildingInput → Temps
  | [] => T
  | i :: is => b.run dt (b.step dt T i) is

/-! ## Thermostats -/

/-- One thermostat in `Thermostats.step`, `heating_simulators.py:831-906` (the same for the three of them). -/
def thermostatStep (on : Bool) (temperature target deadband : Rat) : Bool :=
  (on && decide (temperature < target + deadband)) || (!on && decide (temperature ≤ target - deadband))

/-- The initial state of a thermostat, `heating_simulators.py:735-746`. -/
def thermostatInit (temperature target : Rat) : Bool := decide (temperature < target)

/-- `thermostat_states`. (`heating_simulators.py:716-759`) -/
structure ThermostatStates where
  hotWater : Bool
  spaceHeating : Bool
  emitter : Bool
deriving DecidableEq

/-- `target_temperatures`, and the deadbands. (`heating_simulators.py:716-786`) -/
structure Targets where
  dhw : Rat
  spaceHeating : Rat
  emitter : Rat
deriving DecidableEq

/-- `Thermostats.step`, `heating_simulators.py:811-906`, without new targets. -/
def thermostatsStep (s : ThermostatStates) (T : Temps) (target deadband : Targets) : ThermostatStates :=
  { hotWater := thermostatStep s.hotWater T.cylinder target.dhw deadband.dhw
    spaceHeating := thermostatStep s.spaceHeating T.interior target.spaceHeating deadband.spaceHeating
    emitter := thermostatStep s.emitter T.emitter target.emitter deadband.emitter }

/-- `Thermostats.initialize_starting_state` with temperatures, `heating_simulators.py:733-748`. -/
def thermostatsInit (T : Temps) (target : Targets) : ThermostatStates :=
  { hotWater := thermostatInit T.cylinder target.dhw
    spaceHeating := thermostatInit T.interior target.spaceHeating
    emitter := thermostatInit T.emitter target.emitter }

/-! ## Heat demand -/

/-- `heatdemand_algo`. (`heating_simulators.py:950-984`) -/
inductive DemandAlgo where
  | heatMaxEmitters
  | roomEstimation
deriving DecidableEq

/-- `target_heat_demand`. (`heating_simulators.py:1090-1124`) -/
structure Demand where
  dhw : Rat
  spaceHeating : Rat
deriving DecidableEq

/-- `_compute_target_heat_output_hot_water`, `heating_simulators.py:1007-1029`. -/
def hotWaterDemand (b : Building) (dt : Rat) (T : Temps) (dhwDemand : Rat) (target deadband : Targets) : Rat :=
  b.cCyl / dt * (target.dhw + deadband.dhw - T.cylinder) + dhwDemand * (T.cylinder - T.coldWater) + b.hLoss * (T.cylinder - T.interior)

/-- `_compute_target_heat_output_space_heating`, `heating_simulators.py:1031-1088`, with `H_ibo` of line 1005. `room_estimation` without outside
temperature falls back to the other algorithm (`FiveModulesHeatingSimulator` always gives it). -/
def spaceDemand (algo : DemandAlgo) (b : Building) (dt : Rat) (T : Temps) (outside : Rat) (target deadband : Targets) : Rat :=
  match algo with
  | .heatMaxEmitters => b.cEm / dt * (target.emitter + deadband.emitter - T.emitter) + b.hEm * (T.emitter - T.interior)
  | .roomEstimation =>
    let hIbo := (1 / b.hBi + 1 / b.hOb)⁻¹
    b.cI / dt * (target.spaceHeating + deadband.spaceHeating - T.interior) - b.hEm * (T.emitter - T.interior) +
      b.hV * (T.interior - outside) + hIbo * (T.interior - outside)

/-- `HeatDemand.step`, `heating_simulators.py:1090-1124`. -/
def heatDemand (algo : DemandAlgo) (b : Building) (dt : Rat) (T : Temps) (dhwDemand outside : Rat) (target deadband : Targets) : Demand :=
  { dhw := hotWaterDemand b dt T dhwDemand target deadband, spaceHeating := spaceDemand algo b dt T outside target deadband }

/-! ## Controls -/

/-- `heating_controls`. (`heating_simulators.py:1186-1250`) -/
structure Controls where
  heaterOn : Bool
  heatWaterOn : Bool
  spaceHeatingOn : Bool
deriving DecidableEq

/-- `SystemControls.step`, `heating_simulators.py:1201-1250`. -/
def controlsStep (isCombi externalCylinder : Bool) (dhwDemand : Rat) (s : ThermostatStates) : Controls :=
  let water := if isCombi || externalCylinder then decide (dhwDemand > 0) else s.hotWater
  let space := s.spaceHeating && s.emitter
  { heaterOn := water || space, heatWaterOn := water, spaceHeatingOn := space }

/-! ## Heating system -/

/-- `fuel_types`: anything else raises `ValueError`. (`heating_simulators.py:1362-1407`) -/
inductive Fuel where
  | mainsGas
  | electricity
  | other
deriving DecidableEq

/-- The heating system of a household, `heating_simulators.py:1362-1407`. -/
structure HeatSys where
  pump : Rat
  standby : Rat
  flowRate : Rat
  flowRateToW : Rat
  fuel : Fuel
  maxSpace : Rat
  maxDhw : Rat
  isCombi : Bool
deriving DecidableEq

/-- `heat_outputs`. (`heating_simulators.py:1499-1572`) -/
structure HeatOutputs where
  dhw : Rat
  spaceHeating : Rat
  total : Rat
deriving DecidableEq

/-- `HeatingSystem.step`, `heating_simulators.py:1499-1572`. -/
def HeatSys.step (h : HeatSys) (c : Controls) (d : Demand) : HeatOutputs :=
  let reqDhw := npClip d.dhw 0 h.maxDhw
  let dhw := if c.heaterOn && c.heatWaterOn then reqDhw else 0
  let remaining := npClip (h.maxSpace - reqDhw) 0 h.maxSpace
  let reqSh := npClip d.spaceHeating 0 remaining
  let sh := if c.heaterOn && c.heatWaterOn && c.spaceHeatingOn then reqSh else 0
  let reqSh := npClip d.spaceHeating 0 h.maxSpace
  let sh := if c.heaterOn && !c.heatWaterOn && c.spaceHeatingOn then reqSh else sh
  { dhw := dhw, spaceHeating := sh, total := sh + dhw }

/-- `get_pumps_power_consumptions`, `heating_simulators.py:1413-1426`. -/
def HeatSys.pumpPower (h : HeatSys) (c : Controls) : Rat := if c.spaceHeatingOn then h.pump else h.standby

/-- A division of floats: `none` (NaN or infinite) for a zero denominator. (`heating_simulators.py:1362-1407`) -/
def fdiv (a b : Rat) : Option Rat := if b = 0 then none else some (a / b)

/-- The sum `phi_space / max_space + phi_dhw / max_dhw`, `heating_simulators.py:1447-1450`. -/
def HeatSys.loadRatio (h : HeatSys) (o : HeatOutputs) : Option Rat :=
  match fdiv o.spaceHeating h.maxSpace, fdiv o.dhw h.maxDhw with
  | some a, some b => some (a + b)
  | _, _ => none

/-- `get_fuel_consumptions` for one fuel, `heating_simulators.py:1428-1467`. -/
def HeatSys.fuelConsumption (h : HeatSys) (c : Controls) (o : HeatOutputs) (fuel : Fuel) : Option Rat :=
  let occurs := c.heaterOn && (decide (h.maxSpace > 0) || decide (h.maxDhw > 0))
  if decide (h.fuel = fuel) && occurs then
    (h.loadRatio o).map fun r => h.flowRate * (match fuel with | .mainsGas => 3600 | _ => 1000) * r
  else some 0

/-- `get_power_demand`, `heating_simulators.py:1486-1497`, in a simulation where no household has another fuel than gas or electricity. When no household at
all has electricity, 0 is added: the same value. -/
def HeatSys.powerDemand (h : HeatSys) (c : Controls) (o : HeatOutputs) : Option Rat :=
  (h.fuelConsumption c o .electricity).map fun e => h.pumpPower c + e

/-! ## The five modules together -/

/-- `_split_heat_outputs_dhw_sh`, `heating_simulators.py:1716-1772`: hot water and space heating. -/
def splitHeat (output : Rat) (c : Controls) (d : Demand) : Rat × Rat :=
  let reqDhw := npClip d.dhw 0 output
  let dhw := if c.heaterOn && c.heatWaterOn then reqDhw else 0
  let remaining := output - reqDhw
  let reqSh := npClip d.spaceHeating 0 remaining
  let sh := if c.heaterOn && c.heatWaterOn && c.spaceHeatingOn then reqSh else 0
  let reqSh := npClip d.spaceHeating 0 output
  let sh := if c.heaterOn && !c.heatWaterOn && c.spaceHeatingOn then reqSh else sh
  let remaining := output - sh - dhw
  (dhw + remaining, sh)

/-- `external_heat_outputs`: not given, an array (a value or NaN for this household), or a dictionary with optional entries. (`heating_simulators.py:1798-1842`) -/
inductive ExtHeat where
  | none
  | array (v : Option Rat)
  | dict (dhw spaceHeating : Option (Option Rat))

/-- The entries of a dictionary of external outputs for this household: absent, NaN, or a value. (`heating_simulators.py:1798-1842`) -/
structure ExtDict where
  dhw : Option (Option Rat)
  spaceHeating : Option (Option Rat)

/-- `_assign_external_heat_outputs`, `heating_simulators.py:1798-1842`; the controls and the demand are those of the step before. NaN in an array makes the hot water NaN, but the space heating 0 where it is off
(`np.where` of `heating_simulators.py:1744-1762`). -/
def assignExternal (c : Controls) (d : Demand) (heat : ExtHeat) (dhw sh : Option (Option Rat)) : ExtDict :=
  let base : ExtDict := match heat with
    | .none => ⟨.none, .none⟩
    | .dict w s => ⟨w, s⟩
    | .array .none => ⟨some .none, some (if c.heaterOn && c.spaceHeatingOn then .none else some 0)⟩
    | .array (some v) => ⟨some (some (splitHeat v c d).1), some (some (splitHeat v c d).2)⟩
  { dhw := match dhw with | some v => some v | .none => base.dhw
    spaceHeating := match sh with | some v => some v | .none => base.spaceHeating }

/-- `_set_external_heating_systems`, `heating_simulators.py:1774-1796`. -/
def ExtDict.isExternal (e : ExtDict) : Bool := e.dhw.join.isSome || e.spaceHeating.join.isSome

/-- `assign_external_dict(heat_outputs, external)`: the entries of the dictionary of the heating system itself are overwritten, the total is not. (`heating_simulators.py:1798-1842`) -/
def ExtDict.apply (e : ExtDict) (o : HeatOutputs) : HeatOutputs :=
  { dhw := e.dhw.join.getD o.dhw, spaceHeating := e.spaceHeating.join.getD o.spaceHeating, total := o.total }

/-- The state of a `FiveModulesHeatingSimulator` (for a household); `demandDt` is the step size of its `HeatDemand`. (`heating_simulators.py:1649-1694`) -/
structure FiveModules where
  building : Building
  sys : HeatSys
  algo : DemandAlgo
  dt : Rat
  demandDt : Rat
  deadband : Targets
  target : Targets
  temps : Temps
  thermostats : ThermostatStates
  controls : Controls
  demand : Demand
  outputs : HeatOutputs
  useExternal : Bool
  externalCylinder : Bool
  cylDhwDemand : Rat
deriving DecidableEq

/-- The inputs of `FiveModulesHeatingSimulator.step`. `target` are the entries of the target temperatures that are given; an array is an entry
for space heating. (`heating_simulators.py:1844-1963`) -/
structure FiveInput where
  outside : Rat
  irradiance : Rat
  dhwDemand : Rat
  occupancyGains : Rat
  lightingGains : Rat
  applianceGains : Rat
  targetDhw : Option Rat
  targetSpace : Option Rat
  targetEmitter : Option Rat
  extHeat : ExtHeat
  extDhw : Option (Option Rat)
  extSh : Option (Option Rat)
  extCylinder : Option (Option Rat)

namespace FiveModules

/-- `FiveModulesHeatingSimulator.__init__`, `heating_simulators.py:1650-1689`, from the sampled parameters and initial temperatures: `HeatDemand` is created without `step_size`, so
that it uses its default of 60 seconds. `Thermostats` are created without temperatures, so that they all are off. -/
def create (building : Building) (sys : HeatSys) (algo : DemandAlgo) (dt : Rat) (deadband target : Targets) (temps : Temps) : FiveModules :=
  { building := building, sys := sys, algo := algo, dt := dt, demandDt := 60, deadband := deadband, target := target, temps := temps
    thermostats := thermostatsInit { temps with cylinder := target.dhw, interior := target.spaceHeating, emitter := target.emitter } target
    controls := ⟨false, false, false⟩, demand := ⟨0, 0⟩, outputs := ⟨0, 0, 0⟩, useExternal := false, externalCylinder := false, cylDhwDemand := 0 }

/-- `set_external_heating_system`, `heating_simulators.py:1696-1714`: the combi flag is kept in `sys`, the cylinder in `building`. -/
def setExternal (s : FiveModules) (isCombi : Bool) (hLoss cCyl : Rat) : FiveModules :=
  { s with sys := { s.sys with isCombi := isCombi }, building := { s.building with hLoss := hLoss, cCyl := cCyl }, useExternal := true }

/-- `step`, `heating_simulators.py:1844-1963`. -/
def step (s : FiveModules) (i : FiveInput) : FiveModules :=
  let ext := assignExternal s.controls s.demand i.extHeat i.extDhw i.extSh
  let T := { s.temps with cylinder := i.extCylinder.join.getD s.temps.cylinder }
  let target : Targets := { dhw := i.targetDhw.getD s.target.dhw, spaceHeating := i.targetSpace.getD s.target.spaceHeating, emitter := i.targetEmitter.getD s.target.emitter }
  let thermostats := thermostatsStep s.thermostats T target s.deadband
  let controls := controlsStep s.sys.isCombi s.externalCylinder i.dhwDemand thermostats
  let demand := heatDemand s.algo s.building s.demandDt T i.dhwDemand i.outside target s.deadband
  let outputs := ext.apply (s.sys.step controls demand)
  let temps := s.building.step s.dt T
    { outside := i.outside, irradiance := i.irradiance, dhwDemand := i.dhwDemand, occupancyGains := i.occupancyGains, lightingGains := i.lightingGains
      applianceGains := i.applianceGains, spaceHeating := outputs.spaceHeating, dhw := outputs.dhw }
  { s with
    target := target, temps := temps, thermostats := thermostats, controls := controls, demand := demand, outputs := outputs
    useExternal := ext.isExternal
    externalCylinder := match i.extCylinder with | some v => v.isSome | none => s.externalCylinder
    cylDhwDemand := match i.extCylinder with
      | some _ => i.dhwDemand * (target.dhw - temps.coldWater) + s.building.hLoss * (temps.cylinder - temps.interior)
      | none => s.cylDhwDemand }

/-- Several steps. (`heating_simulators.py:1844-1963`) -/
def run (s : FiveModules) : List FiveInput → FiveModules
  | [] => s
  | i :: is => (s.step i).run is

/-- `get_dhw_heat_demand`, `heating_simulators.py:1989-2008`. -/
def dhwHeatDemand (s : FiveModules) : Rat :=
  if s.externalCylinder then s.cylDhwDemand * (if s.controls.heatWaterOn then 1 else 0) else s.demand.dhw * (if s.controls.heatWaterOn then 1 else 0)

/-- `get_sh_heat_demand`, `heating_simulators.py:2010-2014`. -/
def shHeatDemand (s : FiveModules) : Rat := s.demand.spaceHeating * (if s.controls.spaceHeatingOn then 1 else 0)

/-- `get_total_heat_demand`, `heating_simulators.py:1981-1987`. -/
def totalHeatDemand (s : FiveModules) : Rat := (if s.controls.heaterOn then 1 else 0) * (s.dhwHeatDemand + s.shHeatDemand)

/-- `get_power_demand`, `heating_simulators.py:2016-2022`. -/
def powerDemand (s : FiveModules) : Option Rat := if s.useExternal then some 0 else s.sys.powerDemand s.controls s.outputs

end FiveModules

end Demod
