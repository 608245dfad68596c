import Verif.Model.LoadSim
import Verif.Model.HeatSim

/-! # `LoadSimulator` with its `FiveModulesHeatingSimulator` (`demod/simulators/load_simulators.py`, lines 252-260 and 320-343) -/

namespace Demod

/-- The optional inputs of a step for the heating. (`load_simulators.py:264-276`) -/
structure HeatOpt where
  target : HeatSim.TargetIn
  extHeat : HeatSim.HeatOutIn
  extDhw : Option (List (Option Rat))
  extSpace : Option (List (Option Rat))
  extCylinder : Option (List (Option Rat))

/-- The arguments of `self.heating.step`, `load_simulators.py:321-342`. -/
def HeatIn.toStep (i : HeatIn HeatOpt) : HeatSim.StepIn :=
  { outside := i.outside, irradiance := i.irradiance, dhw := i.dhw, occupancy := i.occupancy, light := i.light, appliances := i.appliances, target := i.opt.target, extHeat := i.opt.extHeat, extDhw := i.opt.extDhw, extSpace := i.opt.extSpace
    extCylinder := i.opt.extCylinder }

/-- The data of a `LoadSimulator` with the heating simulator of the code: the default algorithm and a step of one minute, `load_simulators.py:252-258`, `heating_simulators.py:1650-1657`. -/
def LoadData.fiveModules {C : Type} (D : LoadData C HeatSim HeatOpt) (hd : HeatData) (draws : HeatDraws) : LoadData C HeatSim HeatOpt :=
  { D with
    heatingInit := fun n outside => HeatSim.create hd n outside "heat_max_emmiters" 60 draws
    heatingStep := fun x i => x.step i.toStep
    heatingPower := fun x => x.powerDemand }

/-- `get_temperatures`, `heating_simulators.py:2033-2034` and `645-662`. The number under the key `'cold_water'` is left out. -/
def HeatSim.temperatures (s : HeatSim) : List (String × List Rat) := [("interior", s.build.interior), ("building", s.build.building), ("emitter", s.build.emitter), ("cylinder", s.build.cylinder)]

namespace LoadSim

variable {C : Type}

/-- A getter of the heating simulator; without heating there is no attribute `heating`, `load_simulators.py:252-260`. -/
def ofHeating {α : Type} (s : LoadSim C HeatSim) (get : HeatSim → α) : Except PyErr α :=
  match s.heating with
  | some x => .ok (get x)
  | none => .error .attributeError

/-- `get_total_heat_demand`, `load_simulators.py:361-363`. -/
def totalHeatDemand (s : LoadSim C HeatSim) : Except PyErr (List Rat) := s.ofHeating HeatSim.totalHeatDemand

/-- `get_dhw_heat_demand`, `load_simulators.py:365-367`. -/
def dhwHeatDemand (s : LoadSim C HeatSim) : Except PyErr (List Rat) := s.ofHeating HeatSim.dhwHeatDemand

/-- `get_sh_heat_demand`, `load_simulators.py:369-371`. -/
def shHeatDemand (s : LoadSim C HeatSim) : Except PyErr (List Rat) := s.ofHeating HeatSim.shHeatDemand

/-- `get_temperatures`, `load_simulators.py:373-374`. -/
def temperatures (s : LoadSim C HeatSim) : Except PyErr (List (String × List Rat)) := s.ofHeating HeatSim.temperatures

end LoadSim

end Demod
