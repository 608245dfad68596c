import Verif.Model.HeatSim
import Verif.Spec.Heating
import Verif.Spec.Markov

/-! # Specifications for the whole heating simulator: its arrays and its households -/

namespace Demod

instance : Inhabited Fuel := ⟨.other⟩

/-- The array with the entries `f 0`, …, `f (n - 1)`. -/
def tab {α : Type} (n : Nat) (f : Nat → α) : List α := (List.range n).map f

/-- Entry `h` of an array. -/
def el {α : Type} [Inhabited α] (a : List α) (h : Nat) : α := a.getD h default

/-- The names of the algorithms. -/
def DemandAlgo.name : DemandAlgo → String
  | .heatMaxEmitters => "heat_max_emmiters"
  | .roomEstimation => "room_estimation"

/-- The arrays of the simulator have at `h` the values of the household `F h`. -/
structure HeatSim.Packs (s : HeatSim) (F : Nat → FiveModules) : Prop where
  dt : ∀ h, (F h).dt = s.dt
  demandDt : ∀ h, (F h).demandDt = s.demandDt
  deadband : ∀ h, (F h).deadband = s.therm.deadband
  demDeadband : s.dem.deadband = s.therm.deadband
  algo : ∀ h, (F h).algo.name = s.dem.algo
  coldWater : ∀ h, (F h).temps.coldWater = s.build.coldWater
  pump : s.sys.pump = tab s.n fun h => (F h).sys.pump
  standby : s.sys.standby = tab s.n fun h => (F h).sys.standby
  flowRate : s.sys.flowRate = tab s.n fun h => (F h).sys.flowRate
  flowRateToW : s.sys.flowRateToW = tab s.n fun h => (F h).sys.flowRateToW
  fuel : s.sys.fuel = tab s.n fun h => (F h).sys.fuel
  maxSpace : s.sys.maxSpace = tab s.n fun h => (F h).sys.maxSpace
  maxDhw : s.sys.maxDhw = tab s.n fun h => (F h).sys.maxDhw
  isCombi : s.ctrl.isCombi = tab s.n fun h => (F h).sys.isCombi
  outDhw : s.sys.outDhw = tab s.n fun h => (F h).outputs.dhw
  outSpace : s.sys.outSpace = tab s.n fun h => (F h).outputs.spaceHeating
  outTotal : s.sys.outTotal = tab s.n fun h => (F h).outputs.total
  targetDhw : s.therm.targetDhw = tab s.n fun h => (F h).target.dhw
  targetSpace : s.therm.targetSpace = tab s.n fun h => (F h).target.spaceHeating
  targetEmitter : s.therm.targetEmitter = tab s.n fun h => (F h).target.emitter
  thHotWater : s.therm.hotWater = tab s.n fun h => (F h).thermostats.hotWater
  thSpace : s.therm.space = tab s.n fun h => (F h).thermostats.spaceHeating
  thEmitter : s.therm.emitter = tab s.n fun h => (F h).thermostats.emitter
  cEm : s.build.cEm = tab s.n fun h => (F h).building.cEm
  hEm : s.build.hEm = tab s.n fun h => (F h).building.hEm
  cB : s.build.cB = tab s.n fun h => (F h).building.cB
  cI : s.build.cI = tab s.n fun h => (F h).building.cI
  hBi : s.build.hBi = tab s.n fun h => (F h).building.hBi
  hOb : s.build.hOb = tab s.n fun h => (F h).building.hOb
  hV : s.build.hV = tab s.n fun h => (F h).building.hV
  irr : s.build.irradianceMultiplier = tab s.n fun h => (F h).building.irradianceMultiplier
  hLoss : s.build.hLoss = tab s.n fun h => (F h).building.hLoss
  cCyl : s.build.cCyl = tab s.n fun h => (F h).building.cCyl
  building : s.build.building = tab s.n fun h => (F h).temps.building
  interior : s.build.interior = tab s.n fun h => (F h).temps.interior
  emitter : s.build.emitter = tab s.n fun h => (F h).temps.emitter
  cylinder : s.build.cylinder = tab s.n fun h => (F h).temps.cylinder
  heater : s.ctrl.heater = tab s.n fun h => (F h).controls.heaterOn
  water : s.ctrl.water = tab s.n fun h => (F h).controls.heatWaterOn
  space : s.ctrl.space = tab s.n fun h => (F h).controls.spaceHeatingOn
  demCCyl : s.dem.cCyl = tab s.n fun h => (F h).building.cCyl
  demHLoss : s.dem.hLoss = tab s.n fun h => (F h).building.hLoss
  demCEm : s.dem.cEm = tab s.n fun h => (F h).building.cEm
  demHEm : s.dem.hEm = tab s.n fun h => (F h).building.hEm
  demCI : s.dem.cI = tab s.n fun h => (F h).building.cI
  demHV : s.dem.hV = tab s.n fun h => (F h).building.hV
  demHIbo : s.dem.hIbo = tab s.n fun h => 1 / (1 / (F h).building.hBi + 1 / (F h).building.hOb)
  demDhw : s.dem.dhw = tab s.n fun h => (F h).demand.dhw
  demSpace : s.dem.space = tab s.n fun h => (F h).demand.spaceHeating
  useExternal : s.useExternal = tab s.n fun h => (F h).useExternal
  externalCylinder : s.externalCylinder = tab s.n fun h => (F h).externalCylinder
  cylDhw : s.cylDhw = tab s.n fun h => (F h).cylDhwDemand

/-- All arrays of the inputs have one entry per household, and the targets are an array or a dictionary. -/
structure HeatSim.StepIn.Sized (i : HeatSim.StepIn) (n : Nat) : Prop where
  dhw : i.dhw.length = n
  occupancy : i.occupancy.length = n
  light : i.light.length = n
  appliances : i.appliances.length = n
  target : match i.target with
    | .none => True
    | .array v => v.length = n
    | .dict w h e => (∀ v ∈ w, v.length = n) ∧ (∀ v ∈ h, v.length = n) ∧ (∀ v ∈ e, v.length = n)
    | .other => False
  extHeat : match i.extHeat with
    | .array v => v.length = n
    | .dict w h => (∀ v ∈ w, v.length = n) ∧ (∀ v ∈ h, v.length = n)
    | _ => True
  extDhw : ∀ v ∈ i.extDhw, v.length = n
  extSpace : ∀ v ∈ i.extSpace, v.length = n
  extCylinder : ∀ v ∈ i.extCylinder, v.length = n

/-- What the inputs are for household `h`. -/
def HeatSim.StepIn.at (i : HeatSim.StepIn) (h : Nat) : FiveInput :=
  { outside := i.outside, irradiance := i.irradiance, dhwDemand := el i.dhw h, occupancyGains := el i.occupancy h, lightingGains := el i.light h, applianceGains := el i.appliances h
    targetDhw := match i.target with | .dict w _ _ => w.map fun v => el v h | _ => none
    targetSpace := match i.target with | .array v => some (el v h) | .dict _ v _ => v.map fun v => el v h | _ => none
    targetEmitter := match i.target with | .dict _ _ v => v.map fun v => el v h | _ => none
    extHeat := match i.extHeat with | .array v => .array (el v h) | .dict w v => .dict (w.map fun x => el x h) (v.map fun x => el x h) | _ => .none
    extDhw := i.extDhw.map fun v => el v h
    extSh := i.extSpace.map fun v => el v h
    extCylinder := i.extCylinder.map fun v => el v h }

/-- The arrays of a call have one entry per household. -/
def HeatSim.Op.Sized (n : Nat) : HeatSim.Op → Prop
  | .step i => i.Sized n
  | .external new => new.isCombi.length = n ∧ new.hLoss.length = n ∧ new.cCyl.length = n

/-- What a call does to household `h`. -/
def HeatSim.Op.at (h : Nat) (f : FiveModules) : HeatSim.Op → FiveModules
  | .step i => f.step (i.at h)
  | .external new => f.setExternal (el new.isCombi h) (el new.hLoss h) (el new.cCyl h)

/-- A household alone, after the calls. -/
def FiveModules.after (f : FiveModules) (h : Nat) (ops : List HeatSim.Op) : FiveModules := ops.foldl (fun g o => o.at h g) f

/-- The first entry of a cumulative distribution above the draw is entry `k`. -/
def CdfSampled (cdf : List Rat) (u : Rat) (k : Nat) : Prop := k < cdf.length ∧ u < cdf.getD k 0 ∧ ∀ j, j < k → cdf.getD j 0 ≤ u

/-- The dictionaries are consistent: one entry per type, probabilities, and cumulative distributions up to 1. -/
structure HeatData.Ok (D : HeatData) : Prop where
  sysProb : IsDist D.sysProb
  pump : D.pump.length = D.sysProb.length
  standby : D.standby.length = D.sysProb.length
  flowRate : D.flowRate.length = D.sysProb.length
  flowRateToW : D.flowRateToW.length = D.sysProb.length
  fuel : D.fuel.length = D.sysProb.length
  maxSpace : D.maxSpace.length = D.sysProb.length
  maxDhw : D.maxDhw.length = D.sysProb.length
  cylLoss : D.cylLoss.length = D.sysProb.length
  cylVolume : D.cylVolume.length = D.sysProb.length
  isCombi : D.isCombi.length = D.sysProb.length
  home : 1 ∈ D.homeCdf
  homeValues : D.homeValues.length = D.homeCdf.length
  water : 1 ∈ D.waterCdf
  waterValues : D.waterValues.length = D.waterCdf.length
  buildingProb : IsDist D.buildingProb
  emittersTarget : D.emittersTarget.length = D.buildingProb.length
  cEm : D.cEm.length = D.buildingProb.length
  hEm : D.hEm.length = D.buildingProb.length
  cB : D.cB.length = D.buildingProb.length
  cI : D.cI.length = D.buildingProb.length
  hBi : D.hBi.length = D.buildingProb.length
  hOb : D.hOb.length = D.buildingProb.length
  hV : D.hV.length = D.buildingProb.length
  irr : D.irradianceMultiplier.length = D.buildingProb.length

/-- The random numbers of the constructor for `n` households. -/
structure HeatDraws.Ok (d : HeatDraws) (n : Nat) : Prop where
  system : Draws n d.system
  home : Draws n d.home
  water : Draws n d.water
  building : Draws n d.building
  interior : d.interior.length = n
  cylinder : d.cylinder.length = n

/-- A household with heating system of type `k`, building of type `b`, and indexes `t` and `w` of the targets of room and hot water; the random numbers of its temperatures are `r` and `c`. -/
def HeatData.household (D : HeatData) (outside dt : Rat) (algo : DemandAlgo) (k b t w : Nat) (r c : Rat) : FiveModules :=
  let target := el D.homeValues t
  let room := target + r
  { building := { cB := el D.cB b, cI := el D.cI b, cEm := el D.cEm b, hEm := el D.hEm b, hBi := el D.hBi b, hOb := el D.hOb b, hV := el D.hV b, irradianceMultiplier := el D.irradianceMultiplier b
                  hLoss := el D.cylLoss k, cCyl := 4200 * el D.cylVolume k }
    sys := { pump := el D.pump k, standby := el D.standby k, flowRate := el D.flowRate k, flowRateToW := el D.flowRateToW k, fuel := el D.fuel k, maxSpace := el D.maxSpace k, maxDhw := el D.maxDhw k, isCombi := el D.isCombi k }
    algo := algo, dt := dt, demandDt := 60, deadband := D.deadband
    target := { dhw := el D.waterValues w, spaceHeating := target, emitter := D.emitterSetpoint }
    temps := { building := (outside + target) / 2, interior := room, emitter := if target ≤ room then room else el D.emittersTarget b, cylinder := 50 + 2 * c, coldWater := 10 }
    thermostats := ⟨false, false, false⟩, controls := ⟨false, false, false⟩, demand := ⟨0, 0⟩, outputs := ⟨0, 0, 0⟩, useExternal := false, externalCylinder := false, cylDhwDemand := 0 }

/-- Two simulations agree at household `h` of the first and `h'` of the second. -/
structure SameHousehold (n n' h h' : Nat) (d d' : HeatDraws) (ops ops' : List HeatSim.Op) : Prop where
  lt : h < n
  lt' : h' < n'
  system : el d.system h = el d'.system h'
  building : el d.building h = el d'.building h'
  home : el d.home h = el d'.home h'
  water : el d.water h = el d'.water h'
  interior : el d.interior h = el d'.interior h'
  cylinder : el d.cylinder h = el d'.cylinder h'
  ops : ops.map (fun o => fun f => o.at h f) = ops'.map (fun o => fun f => o.at h' f)

end Demod
