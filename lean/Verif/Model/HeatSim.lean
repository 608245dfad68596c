import Verif.Model.Heating
import Verif.Model.Sampling

/-!
# The whole `FiveModulesHeatingSimulator` with its arrays (`demod/simulators/heating_simulators.py`, lines 418-2040)

Construction from the dictionaries of the data and steps on arrays with one entry per household; `Model/Heating.lean` has one household alone. The arrays given by the user have an entry per household; numpy's errors for other lengths, and
its repetition of arrays with a single entry, are not modelled. Floats are rationals; the data have no zero capacities or transfer coefficients, so that the divisions of `BuildingThermalDynamics` and `HeatDemand` are defined.
-/

namespace Demod

/-! ## Arrays -/

namespace Arr

/-- `a + b` (`heating_simulators.py:584-642`) -/
def add (a b : List Rat) : List Rat := List.zipWith (fun x y => x + y) a b

/-- `a - b` (`heating_simulators.py:584-642`) -/
def sub (a b : List Rat) : List Rat := List.zipWith (fun x y => x - y) a b

/-- `a * b` (`heating_simulators.py:584-642`) -/
def mul (a b : List Rat) : List Rat := List.zipWith (fun x y => x * y) a b

/-- `a / b` (`heating_simulators.py:584-642`) -/
def div (a b : List Rat) : List Rat := List.zipWith (fun x y => x / y) a b

/-- A scalar with an array: it is repeated. (`heating_simulators.py:584-642`) -/
def const {α : Type} (n : Nat) (c : α) : List α := List.replicate n c

/-- `a & b` (`heating_simulators.py:838-904`) -/
def and (a b : List Bool) : List Bool := List.zipWith (fun x y => x && y) a b

/-- `a | b` (`heating_simulators.py:838-904`) -/
def or (a b : List Bool) : List Bool := List.zipWith (fun x y => x || y) a b

/-- `~a` (`heating_simulators.py:838-904`) -/
def not (a : List Bool) : List Bool := a.map fun x => !x

/-- `a < b` (`heating_simulators.py:838-904`) -/
def lt (a b : List Rat) : List Bool := List.zipWith (fun x y => decide (x < y)) a b

/-- `a <= b` (`heating_simulators.py:838-904`) -/
def le (a b : List Rat) : List Bool := List.zipWith (fun x y => decide (x ≤ y)) a b

/-- `np.where(c, a, b)` (`heating_simulators.py:838-904`) -/
def cond {α : Type} (c : List Bool) (a b : List α) : List α := List.zipWith (fun c p => if c then p.1 else p.2) c (a.zip b)

/-- `np.clip(a, lo, hi)` (`heating_simulators.py:1499-1572`) -/
def clip (a lo hi : List Rat) : List Rat := List.zipWith (fun x p => npClip x p.1 p.2) a (lo.zip hi)

/-- `a[idx]` for an array of indexes. (`heating_simulators.py:1377-1407`) -/
def pick {α : Type} (a : List α) (idx : List Nat) : Except PyErr (List α) := idx.mapM fun i => pyGet a i

/-- `assign_external_array` with an array, `util.py:37-40`; `none` is NaN. -/
def assign (a : List Rat) (ext : List (Option Rat)) : List Rat := List.zipWith (fun x e => e.getD x) a ext

/-- Numbers as booleans: `a * b` with a boolean array `b`. (`heating_simulators.py:1981-2014`) -/
def mulBool (a : List Rat) (b : List Bool) : List Rat := List.zipWith (fun x c => x * (if c then 1 else 0)) a b

end Arr

local infixl:65 " +ₐ " => Arr.add
local infixl:65 " -ₐ " => Arr.sub
local infixl:70 " *ₐ " => Arr.mul
local infixl:70 " /ₐ " => Arr.div

/-! ## Data -/

/-- The dictionaries `load_heating_system_dict`, `load_thermostat_dict`, `load_buildings_dict`. (`heating_simulators.py:1362-1407`, `761-786`, `458-495`) -/
structure HeatData where
  sysProb : List Rat
  pump : List Rat
  standby : List Rat
  flowRate : List Rat
  flowRateToW : List Rat
  fuel : List Fuel
  maxSpace : List Rat
  maxDhw : List Rat
  cylLoss : List Rat
  cylVolume : List Rat
  isCombi : List Bool
  homeCdf : List Rat
  homeValues : List Rat
  waterCdf : List Rat
  waterValues : List Rat
  emitterSetpoint : Rat
  deadband : Targets
  buildingProb : List Rat
  emittersTarget : List Rat
  cEm : List Rat
  hEm : List Rat
  cB : List Rat
  cI : List Rat
  hBi : List Rat
  hOb : List Rat
  hV : List Rat
  irradianceMultiplier : List Rat

/-- The random numbers of the constructor: uniform in `[0, 1)`, `interior` in `[-1, 1)`. (`heating_simulators.py:501-553`, `761-786`) -/
structure HeatDraws where
  system : List Rat
  home : List Rat
  water : List Rat
  building : List Rat
  interior : List Rat
  cylinder : List Rat

/-! ## State -/

/-- The instance variables of `HeatingSystem`; `controls` is the dictionary of `SystemControls` itself. (`heating_simulators.py:1312-1407`) -/
structure HeatSysArr where
  pump : List Rat
  standby : List Rat
  flowRate : List Rat
  flowRateToW : List Rat
  fuel : List Fuel
  maxSpace : List Rat
  maxDhw : List Rat
  hLoss : List Rat
  cCyl : List Rat
  isCombi : List Bool
  outDhw : List Rat
  outSpace : List Rat
  outTotal : List Rat

/-- The instance variables of `Thermostats`. (`heating_simulators.py:716-786`) -/
structure ThermostatArr where
  deadband : Targets
  targetDhw : List Rat
  targetSpace : List Rat
  targetEmitter : List Rat
  hotWater : List Bool
  space : List Bool
  emitter : List Bool

/-- The instance variables of `BuildingThermalDynamics`. (`heating_simulators.py:454-553`) -/
structure BuildingArr where
  nominal : List Rat
  cEm : List Rat
  hEm : List Rat
  cB : List Rat
  cI : List Rat
  hBi : List Rat
  hOb : List Rat
  hV : List Rat
  irradianceMultiplier : List Rat
  hLoss : List Rat
  cCyl : List Rat
  building : List Rat
  interior : List Rat
  emitter : List Rat
  cylinder : List Rat
  coldWater : Rat

/-- The instance variables of `SystemControls`. (`heating_simulators.py:1167-1199`) -/
structure ControlArr where
  isCombi : List Bool
  heater : List Bool
  water : List Bool
  space : List Bool

/-- The instance variables of `HeatDemand`. (`heating_simulators.py:950-1005`) -/
structure DemandArr where
  algo : String
  deadband : Targets
  cCyl : List Rat
  hLoss : List Rat
  cEm : List Rat
  hEm : List Rat
  cI : List Rat
  hV : List Rat
  hIbo : List Rat
  dhw : List Rat
  space : List Rat

/-- The instance variables of `FiveModulesHeatingSimulator`; `dt` is the step size of the building in seconds, `demandDt` that of the heat demand. (`heating_simulators.py:1650-1694`) -/
structure HeatSim where
  n : Nat
  dt : Rat
  demandDt : Rat
  sys : HeatSysArr
  therm : ThermostatArr
  build : BuildingArr
  ctrl : ControlArr
  dem : DemandArr
  useExternal : List Bool
  externalCylinder : List Bool
  cylDhw : List Rat

namespace HeatSim

/-! ## Construction -/

/-- The check of the probabilities and the draws of the types, `heating_simulators.py:1363-1375`, `459-469`; an invalid distribution is a bare `Exception`. -/
def drawTypes (prob us : List Rat) : Except PyErr (List Nat) :=
  match checkValidCdf cdfEps [cumsum prob] with
  | .error _ => .error .exception
  | .ok _ => mcFrom1dCdf (cumsum prob) us

/-- `HeatingSystem.__init__`, `heating_simulators.py:1287-1407`. -/
def createSys (D : HeatData) (n : Nat) (us : List Rat) : Except PyErr HeatSysArr := do
  let types ← drawTypes D.sysProb us
  let pump ← Arr.pick D.pump types
  let standby ← Arr.pick D.standby types
  let flowRate ← Arr.pick D.flowRate types
  let flowRateToW ← Arr.pick D.flowRateToW types
  let fuel ← Arr.pick D.fuel types
  let maxSpace ← Arr.pick D.maxSpace types
  let maxDhw ← Arr.pick D.maxDhw types
  let hLoss ← Arr.pick D.cylLoss types
  let volume ← Arr.pick D.cylVolume types
  let isCombi ← Arr.pick D.isCombi types
  .ok { pump := pump, standby := standby, flowRate := flowRate, flowRateToW := flowRateToW, fuel := fuel, maxSpace := maxSpace, maxDhw := maxDhw, hLoss := hLoss, cCyl := volume *ₐ Arr.const n 4200, isCombi := isCombi,
        outDhw := Arr.const n 0, outSpace := Arr.const n 0, outTotal := Arr.const n 0 }

/-- `Thermostats.__init__`, `heating_simulators.py:703-786`, without temperatures: they are the targets. -/
def createTherm (D : HeatData) (n : Nat) (home water : List Rat) : Except PyErr ThermostatArr := do
  let r ← mcFrom1dCdf D.homeCdf home
  let space ← Arr.pick D.homeValues r
  let r ← mcFrom1dCdf D.waterCdf water
  let dhw ← Arr.pick D.waterValues r
  let emitter := Arr.const n D.emitterSetpoint *ₐ Arr.const n 1
  .ok { deadband := D.deadband, targetDhw := dhw, targetSpace := space, targetEmitter := emitter, hotWater := Arr.lt dhw dhw, space := Arr.lt space space, emitter := Arr.lt emitter emitter }

/-- `BuildingThermalDynamics.__init__`, `heating_simulators.py:418-553`, with target temperatures. -/
def createBuild (D : HeatData) (n : Nat) (sys : HeatSysArr) (outside : Rat) (target us interior cylinder : List Rat) : Except PyErr BuildingArr := do
  let types ← drawTypes D.buildingProb us
  let nominal ← Arr.pick D.emittersTarget types
  let cEm ← Arr.pick D.cEm types
  let hEm ← Arr.pick D.hEm types
  let cB ← Arr.pick D.cB types
  let cI ← Arr.pick D.cI types
  let hBi ← Arr.pick D.hBi types
  let hOb ← Arr.pick D.hOb types
  let hV ← Arr.pick D.hV types
  let mult ← Arr.pick D.irradianceMultiplier types
  let inside := target +ₐ interior
  .ok { nominal := nominal, cEm := cEm, hEm := hEm, cB := cB, cI := cI, hBi := hBi, hOb := hOb, hV := hV, irradianceMultiplier := mult, hLoss := sys.hLoss, cCyl := sys.cCyl,
        building := (Arr.const n outside +ₐ target) /ₐ Arr.const n 2, interior := inside, emitter := Arr.cond (Arr.le target inside) inside nominal,
        cylinder := Arr.const n 50 +ₐ Arr.const n 2 *ₐ cylinder, coldWater := 10 }

/-- `HeatDemand.__init__`, `heating_simulators.py:950-1005`. -/
def createDemand (n : Nat) (sys : HeatSysArr) (b : BuildingArr) (algo : String) (deadband : Targets) : DemandArr :=
  { algo := algo, deadband := deadband, cCyl := sys.cCyl, hLoss := sys.hLoss, cEm := b.cEm, hEm := b.hEm, cI := b.cI, hV := b.hV,
    hIbo := Arr.const n 1 /ₐ (Arr.const n 1 /ₐ b.hBi +ₐ Arr.const n 1 /ₐ b.hOb), dhw := Arr.const n 0, space := Arr.const n 0 }

/-- `__init__`, `heating_simulators.py:1650-1694`, and the check of `base_simulators.py:466-474`. The step size is not given to `HeatDemand`, which takes one minute. -/
def create (D : HeatData) (n : Nat) (outside : Rat) (algo : String) (dt : Rat) (d : HeatDraws) : Except PyErr HeatSim := do
  if n = 0 then .error .valueError
  else do
    let sys ← createSys D n d.system
    let therm ← createTherm D n d.home d.water
    let build ← createBuild D n sys outside therm.targetSpace d.building d.interior d.cylinder
    .ok { n := n, dt := dt, demandDt := 60, sys := sys, therm := therm, build := build, ctrl := { isCombi := sys.isCombi, heater := Arr.const n false, water := Arr.const n false, space := Arr.const n false },
          dem := createDemand n sys build algo therm.deadband, useExternal := Arr.const n false, externalCylinder := Arr.const n false, cylDhw := Arr.const n 0 }

/-- `set_external_heating_system`, `heating_simulators.py:1696-1714`. -/
def setExternal (s : HeatSim) (new : HeatSysArr) : HeatSim :=
  { s with ctrl := { s.ctrl with isCombi := new.isCombi }, dem := { s.dem with cCyl := new.cCyl, hLoss := new.hLoss }, build := { s.build with hLoss := new.hLoss, cCyl := new.cCyl }, useExternal := Arr.const s.n true }

/-! ## Steps -/

/-- `external_target_temperature`: not given, an array, a dictionary, or something else. (`heating_simulators.py:791-809`) -/
inductive TargetIn where
  | none
  | array (space : List Rat)
  | dict (dhw space emitter : Option (List Rat))
  | other

/-- `external_heat_outputs`: not given, an array, a dictionary, or something else. (`heating_simulators.py:1798-1842`) -/
inductive HeatOutIn where
  | none
  | array (total : List (Option Rat))
  | dict (dhw space : Option (List (Option Rat)))
  | other

/-- The inputs of a step; NaN is `none`. (`heating_simulators.py:1844-1963`) -/
structure StepIn where
  outside : Rat
  irradiance : Rat
  dhw : List Rat
  occupancy : List Rat
  light : List Rat
  appliances : List Rat
  target : TargetIn
  extHeat : HeatOutIn
  extDhw : Option (List (Option Rat))
  extSpace : Option (List (Option Rat))
  extCylinder : Option (List (Option Rat))

/-- `np.clip(a, 0, hi)`, where `hi` can be NaN. (`heating_simulators.py:1732-1756`) -/
def clipNan (a : List Rat) (hi : List (Option Rat)) : List (Option Rat) := List.zipWith (fun x h => h.map fun h => npClip x 0 h) a hi

/-- `a - b` with NaN. (`heating_simulators.py:1739-1770`) -/
def subNan (a b : List (Option Rat)) : List (Option Rat) := List.zipWith (fun x y => x.bind fun x => y.map fun y => x - y) a b

/-- `a + b` with NaN. (`heating_simulators.py:1739-1770`) -/
def addNan (a b : List (Option Rat)) : List (Option Rat) := List.zipWith (fun x y => x.bind fun x => y.map fun y => x + y) a b

/-- `_split_heat_outputs_dhw_sh`, `heating_simulators.py:1716-1772`, with the controls and the demand of the step before: hot water and space heating. -/
def split (s : HeatSim) (total : List (Option Rat)) : List (Option Rat) × List (Option Rat) :=
  let req := clipNan s.dem.dhw total
  let dhw := Arr.cond (Arr.and s.ctrl.heater s.ctrl.water) req (Arr.const s.n (some 0))
  let remaining := subNan total req
  let sh := Arr.cond (Arr.and (Arr.and s.ctrl.heater s.ctrl.water) s.ctrl.space) (clipNan s.dem.space remaining) (Arr.const s.n (some 0))
  let sh := Arr.cond (Arr.and (Arr.and s.ctrl.heater (Arr.not s.ctrl.water)) s.ctrl.space) (clipNan s.dem.space total) sh
  let remaining := subNan (subNan total sh) dhw
  (addNan dhw remaining, sh)

/-- `_assign_external_heat_outputs`, `heating_simulators.py:1798-1842`: the entries for hot water and space heating. -/
def external (s : HeatSim) (i : StepIn) : Option (List (Option Rat)) × Option (List (Option Rat)) :=
  let base := match i.extHeat with
    | .array t => (some (s.split t).1, some (s.split t).2)
    | .dict w h => (w, h)
    | _ => (none, none)
  (match i.extDhw with | some v => some v | none => base.1, match i.extSpace with | some v => some v | none => base.2)

/-- `set_new_target_temperature`, `heating_simulators.py:791-809`. -/
def newTargets (t : ThermostatArr) : TargetIn → Except PyErr ThermostatArr
  | .none => .ok t
  | .array v => .ok { t with targetSpace := v }
  | .dict w h e => .ok { t with targetDhw := w.getD t.targetDhw, targetSpace := h.getD t.targetSpace, targetEmitter := e.getD t.targetEmitter }
  | .other => .error .typeError

/-- A thermostat in `Thermostats.step`, `heating_simulators.py:838-904`. -/
def thermostat (n : Nat) (on : List Bool) (temperature target : List Rat) (deadband : Rat) : List Bool :=
  Arr.cond (Arr.or (Arr.and on (Arr.lt temperature (target +ₐ Arr.const n deadband))) (Arr.and (Arr.not on) (Arr.le temperature (target -ₐ Arr.const n deadband)))) (Arr.const n true) (Arr.const n false)

/-- `Thermostats.step`, `heating_simulators.py:811-906`, after the new targets. -/
def stepTherm (n : Nat) (t : ThermostatArr) (b : BuildingArr) : ThermostatArr :=
  { t with
    hotWater := thermostat n t.hotWater b.cylinder t.targetDhw t.deadband.dhw
    space := thermostat n t.space b.interior t.targetSpace t.deadband.spaceHeating
    emitter := thermostat n t.emitter b.emitter t.targetEmitter t.deadband.emitter }

/-- `SystemControls.step`, `heating_simulators.py:1201-1250`. -/
def stepCtrl (n : Nat) (c : ControlArr) (dhw : List Rat) (t : ThermostatArr) (externalCylinder : List Bool) : ControlArr :=
  let water := Arr.cond (Arr.or c.isCombi externalCylinder) (Arr.lt (Arr.const n 0) dhw) t.hotWater
  let space := Arr.and t.space t.emitter
  { c with heater := Arr.or water space, water := water, space := space }

/-- `HeatDemand.step`, `heating_simulators.py:1007-1124`. -/
def stepDemand (n : Nat) (dt : Rat) (d : DemandArr) (b : BuildingArr) (t : ThermostatArr) (dhw : List Rat) (outside : Rat) : Except PyErr DemandArr := do
  let water := d.cCyl /ₐ Arr.const n dt *ₐ (t.targetDhw +ₐ Arr.const n d.deadband.dhw -ₐ b.cylinder) +ₐ dhw *ₐ (b.cylinder -ₐ Arr.const n b.coldWater) +ₐ d.hLoss *ₐ (b.cylinder -ₐ b.interior)
  if d.algo = "heat_max_emmiters" then
    .ok { d with dhw := water, space := d.cEm /ₐ Arr.const n dt *ₐ (t.targetEmitter +ₐ Arr.const n d.deadband.emitter -ₐ b.emitter) +ₐ d.hEm *ₐ (b.emitter -ₐ b.interior) }
  else if d.algo = "room_estimation" then
    .ok { d with dhw := water, space := d.cI /ₐ Arr.const n dt *ₐ (t.targetSpace +ₐ Arr.const n d.deadband.spaceHeating -ₐ b.interior) -ₐ d.hEm *ₐ (b.emitter -ₐ b.interior) +ₐ d.hV *ₐ (b.interior -ₐ Arr.const n outside) +ₐ
      d.hIbo *ₐ (b.interior -ₐ Arr.const n outside) }
  else .error .valueError

/-- `HeatingSystem.step`, `heating_simulators.py:1499-1572`. -/
def stepSys (n : Nat) (s : HeatSysArr) (c : ControlArr) (d : DemandArr) : HeatSysArr :=
  let req := Arr.clip d.dhw (Arr.const n 0) s.maxDhw
  let dhw := Arr.cond (Arr.and c.heater c.water) req (Arr.const n 0)
  let remaining := Arr.clip (s.maxSpace -ₐ req) (Arr.const n 0) s.maxSpace
  let sh := Arr.cond (Arr.and (Arr.and c.heater c.water) c.space) (Arr.clip d.space (Arr.const n 0) remaining) (Arr.const n 0)
  let sh := Arr.cond (Arr.and (Arr.and c.heater (Arr.not c.water)) c.space) (Arr.clip d.space (Arr.const n 0) s.maxSpace) sh
  { s with outDhw := dhw, outSpace := sh, outTotal := sh +ₐ dhw }

/-- `BuildingThermalDynamics.step`, `heating_simulators.py:555-643`. -/
def stepBuild (n : Nat) (dt : Rat) (b : BuildingArr) (i : StepIn) (outDhw outSpace : List Rat) : BuildingArr :=
  let phiS := Arr.const n i.irradiance *ₐ b.irradianceMultiplier
  let phiC := i.occupancy +ₐ i.light +ₐ i.appliances
  let dTb := Arr.const n dt /ₐ b.cB *ₐ (Arr.const n (-1) *ₐ (b.hOb +ₐ b.hBi) *ₐ b.building +ₐ b.hBi *ₐ b.interior +ₐ b.hOb *ₐ Arr.const n i.outside)
  let dTi := Arr.const n dt /ₐ b.cI *ₐ (b.hBi *ₐ b.building -ₐ (b.hV +ₐ b.hBi +ₐ b.hEm +ₐ b.hLoss) *ₐ b.interior +ₐ b.hV *ₐ Arr.const n i.outside +ₐ b.hEm *ₐ b.emitter +ₐ b.hLoss *ₐ b.cylinder +ₐ phiS +ₐ phiC)
  let dTem := Arr.const n dt /ₐ b.cEm *ₐ (b.hEm *ₐ b.interior -ₐ b.hEm *ₐ b.emitter +ₐ outSpace)
  let dTcyl := Arr.const n dt /ₐ b.cCyl *ₐ (b.hLoss *ₐ b.interior -ₐ (b.hLoss +ₐ i.dhw) *ₐ b.cylinder +ₐ i.dhw *ₐ Arr.const n b.coldWater +ₐ outDhw)
  { b with building := b.building +ₐ dTb, interior := b.interior +ₐ dTi, emitter := b.emitter +ₐ dTem, cylinder := b.cylinder +ₐ dTcyl }

/-- Where an entry is not NaN. (`heating_simulators.py:1774-1796`) -/
def given (n : Nat) (e : Option (List (Option Rat))) : List Bool :=
  match e with
  | some v => v.map fun x => x.isSome
  | none => Arr.const n false

/-- `assign_external_array` of an array that is perhaps not given, `util.py:20-40`. -/
def assignOpt (a : List Rat) (e : Option (List (Option Rat))) : List Rat :=
  match e with
  | some v => Arr.assign a v
  | none => a

/-- `self.use_external_cylinder`, `heating_simulators.py:1955-1958`. -/
def newExternalCylinder (old : List Bool) (e : Option (List (Option Rat))) : List Bool :=
  match e with
  | some v => v.map fun x => x.isSome
  | none => old

/-- `self.cyl_dhw_demand`, `heating_simulators.py:1955-1963`. -/
def newCylDhw (old new : List Rat) (e : Option (List (Option Rat))) : List Rat :=
  match e with
  | some _ => new
  | none => old

/-- `step`, `heating_simulators.py:1844-1963`. -/
def step (s : HeatSim) (i : StepIn) : Except PyErr HeatSim := do
  let ext := s.external i
  let b := { s.build with cylinder := assignOpt s.build.cylinder i.extCylinder }
  let t ← newTargets s.therm i.target
  let t := stepTherm s.n t b
  let c := stepCtrl s.n s.ctrl i.dhw t s.externalCylinder
  let d ← stepDemand s.n s.demandDt s.dem b t i.dhw i.outside
  let sys := stepSys s.n s.sys c d
  let outDhw := assignOpt sys.outDhw ext.1
  let outSpace := assignOpt sys.outSpace ext.2
  let b := stepBuild s.n s.dt b i outDhw outSpace
  .ok { s with
    sys := { sys with outDhw := outDhw, outSpace := outSpace }, therm := t, build := b, ctrl := c, dem := d
    useExternal := Arr.or (given s.n ext.1) (given s.n ext.2)
    externalCylinder := newExternalCylinder s.externalCylinder i.extCylinder
    cylDhw := newCylDhw s.cylDhw (i.dhw *ₐ (t.targetDhw -ₐ Arr.const s.n b.coldWater) +ₐ d.hLoss *ₐ (b.cylinder -ₐ b.interior)) i.extCylinder }

/-- What a user does with a simulator: steps, and `set_external_heating_system` with a `HeatingSystem`. (`heating_simulators.py:1696-1714`, `1844-1963`) -/
inductive Op where
  | step (i : StepIn)
  | external (new : HeatSysArr)

/-- A sequence of calls. (`heating_simulators.py:1696-1714`, `1844-1963`) -/
def run (s : HeatSim) : List Op → Except PyErr HeatSim
  | [] => .ok s
  | .step i :: os => do
    let s ← s.step i
    s.run os
  | .external new :: os => (s.setExternal new).run os

/-! ## Getters -/

/-- `get_room_temperature`, `heating_simulators.py:1977-1979`. -/
def roomTemperature (s : HeatSim) : List Rat := s.build.interior

/-- `get_dhw_heat_demand`, `heating_simulators.py:1989-2008`. -/
def dhwHeatDemand (s : HeatSim) : List Rat := Arr.cond s.externalCylinder (Arr.mulBool s.cylDhw s.ctrl.water) (Arr.mulBool s.dem.dhw s.ctrl.water)

/-- `get_sh_heat_demand`, `heating_simulators.py:2010-2014`. -/
def shHeatDemand (s : HeatSim) : List Rat := Arr.mulBool s.dem.space s.ctrl.space

/-- `get_total_heat_demand`, `heating_simulators.py:1981-1987`. -/
def totalHeatDemand (s : HeatSim) : List Rat := Arr.mulBool (s.dhwHeatDemand +ₐ s.shHeatDemand) s.ctrl.heater

/-- `phi_space / max_space + phi_dhw / max_dhw`, `heating_simulators.py:1447-1450`; `none` is NaN or infinite. -/
def loadRatio (s : HeatSysArr) : List (Option Rat) :=
  List.zipWith (fun a b => match a, b with | some x, some y => some (x + y) | _, _ => none) (List.zipWith fdiv s.outSpace s.maxSpace) (List.zipWith fdiv s.outDhw s.maxDhw)

/-- The entry `'Electricity'` of `get_fuel_consumptions`, `heating_simulators.py:1428-1467`. -/
def electricity (n : Nat) (s : HeatSysArr) (heater : List Bool) : List (Option Rat) :=
  let occurs := Arr.and heater (Arr.or (Arr.lt (Arr.const n 0) s.maxSpace) (Arr.lt (Arr.const n 0) s.maxDhw))
  Arr.cond (Arr.and (s.fuel.map fun f => decide (f = .electricity)) occurs) (List.zipWith (fun f r => r.map fun x => f * 1000 * x) s.flowRate (loadRatio s)) (Arr.const n (some 0))

/-- `HeatingSystem.get_power_demand`, `heating_simulators.py:1428-1497`: another fuel of any household raises a `ValueError`. -/
def sysPower (n : Nat) (s : HeatSysArr) (c : ControlArr) : Except PyErr (List (Option Rat)) :=
  if s.fuel.any fun f => decide (f = .other) then .error .valueError
  else
    let pumps := Arr.cond c.space s.pump s.standby
    let elec := if s.fuel.any fun f => decide (f = .electricity) then electricity n s c.heater else Arr.const n (some 0)
    .ok (List.zipWith (fun p e => e.map fun x => p + x) pumps elec)

/-- `get_power_demand`, `heating_simulators.py:2016-2022`. -/
def powerDemand (s : HeatSim) : Except PyErr (List (Option Rat)) := do
  let p ← sysPower s.n s.sys s.ctrl
  .ok (Arr.cond s.useExternal (Arr.const s.n (some 0)) p)

end HeatSim

end Demod
