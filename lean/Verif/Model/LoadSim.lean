import Verif.Model.CrestSim
import Verif.Model.OccSim
import Verif.Model.LightSim
import Verif.Model.SparseAct

/-!
# The whole `LoadSimulator` (`demod/simulators/load_simulators.py`)

Construction and steps with the real activity, appliance and lighting simulators; `Model/Load.lean` has arbitrary parts. The climate and the heating remain arbitrary: a type of states with a step and getters. The activity simulator is a
`SubgroupsActivitySimulator` or, for data whose `load_sparse_tpm` raises a `NotImplementedError` (`tou_loader.py:216-234`), a `Crest4StatesModel` (`load_simulators.py:33-49`). The step size is the default, one minute.
-/

namespace Demod

/-- What the heating simulator is given in a step, `load_simulators.py:320-343`; `opt` are the optional inputs. -/
structure HeatIn (Opt : Type) where
  outside : Rat
  irradiance : Rat
  dhw : List Rat
  occupancy : List Rat
  light : List Rat
  appliances : List Rat
  opt : Opt

/-- The data, and the climate and heating simulators. `groups`, `pdf` are the result of `load_population_subgroups()`, `groupsR`, `pdfR` that of `load_population_subgroups('resident_number')`. `sparse` is `load_sparse_tpm`, `fuel` bounds the day loading of its simulator (`Model/SparseAct.lean`). (`load_simulators.py:186-262`) -/
structure LoadData (C H Opt : Type) where
  sparse : SparseLoad
  fuel : Nat
  book : CrestBook
  groups : List Subgroup
  pdf : List Rat
  groupsR : List Subgroup
  pdfR : List Rat
  apps : List AppData
  profiles : Subgroup → List (Str × List (List Rat))
  switchedOn : ProfilesDict (List Rat)
  full : ProfilesDict (List Rat)
  refresh : Int
  dataStep : Int
  lights : LightSource
  climateStep : C → C
  outside : C → Rat
  irradiance : C → Rat
  heatingInit : Nat → Rat → Except PyErr H
  heatingStep : H → HeatIn Opt → Except PyErr H
  heatingPower : H → Except PyErr (List (Option Rat))

/-- The activity simulator, `load_simulators.py:26-57`. -/
inductive LoadAct where
  | crest (s : CrestSim)
  | sparse (m : SparseMulti)

namespace LoadAct

variable {C H Opt : Type}

/-- `_instantiate_activity_simulator`, `load_simulators.py:26-57`: only a `NotImplementedError` of the first simulator leads to the second; that of the second is raised again. The arguments that are not given have their defaults (`sparse_simulators.py:92-103`). -/
def create (D : LoadData C H Opt) (counts : List Nat) (start : Int) (us : List Rat) (e : Nat → List Rat) : Except PyErr LoadAct :=
  match SparseMulti.create D.sparse D.fuel D.groups counts { aware := false, start := some start, quarters := false, sevenDays := false, weekEnds := true } us e with
  | .ok m => .ok (.sparse m)
  | .error .notImplementedError => (CrestSim.create (crestLoadTpm D.book) D.groupsR D.pdfR D.refresh counts.sum .realPopulation false start us e).map .crest
  | .error x => .error x

/-- `self.activity_simulator.step()`, `load_simulators.py:312-313`. -/
def step (D : LoadData C H Opt) (s : LoadAct) (us : List Rat) : Except PyErr LoadAct :=
  match s with
  | .crest s => (s.step (crestLoadTpm D.book) D.refresh us).map .crest
  | .sparse m => (SparseMulti.step D.sparse D.fuel m us).map .sparse

/-- Several steps. (`load_simulators.py:312-313`) -/
def run (D : LoadData C H Opt) : LoadAct → List (List Rat) → Except PyErr LoadAct
  | s, [] => .ok s
  | s, us :: uss => do
    let s ← s.step D us
    run D s uss

/-- A number of active persons as an index into the data of the appliances and the lights (`load_simulators.py:222`, `315`). A negative one would count from the end of the data, which is not modelled: here an `IndexError`. -/
def natOf (x : Int) : Except PyErr Nat := if x < 0 then .error .indexError else .ok x.toNat

/-- `get_active_occupancy` of the activity simulator, `load_simulators.py:222`, `315`. -/
def activeOccupancy (s : LoadAct) : Except PyErr (List Nat) :=
  match s with
  | .crest s => s.activeOccupancy
  | .sparse m => do
    let l ← m.activeOccupancy
    l.mapM natOf

/-- `get_thermal_gains` of the activity simulator, `load_simulators.py:327-329`. -/
def thermalGains (s : LoadAct) : Except PyErr (List Int) :=
  match s with
  | .crest s => s.thermalGains
  | .sparse m => m.thermalGains

/-- The attribute `n_residents` of the activity simulator. (`load_simulators.py:26-57`) -/
def residents (s : LoadAct) : List Int :=
  match s with
  | .crest s => s.residents.map fun r : Nat => (r : Int)
  | .sparse m => m.residents

end LoadAct

/-- The instance variables; `climate`, `heating` are `none` if they are not included. (`load_simulators.py:186-262`) -/
structure LoadSim (C H : Type) where
  minute : Nat
  time : Int
  activity : LoadAct
  appliances : OccSim
  light : LightSim
  climate : Option C
  heating : Option H

/-- The inputs and the draws of a step, `load_simulators.py:264-344`; `activity` are the draws of the activity simulator, used if it makes a step. -/
structure LoadStepIn (Opt : Type) where
  outside : Option Rat
  irradiance : Option Rat
  opt : Opt
  activity : List Rat
  appliances : OccDraws
  light : LightDraws

/-- The arguments of the constructor besides the number of households and the start, and the draws of the constructors of the parts. (`load_simulators.py:186-262`) -/
structure LoadArgs (C : Type) where
  climate : Option C
  heating : Bool
  initialOutside : Rat
  activity : List Rat
  activityInit : Nat → List Rat
  appliances : OccSim.OccArgs
  appliancesInit : Nat → OccDraws
  light : LightArgs

namespace LoadSim

variable {C H Opt : Type}

/-- The heating simulator of the constructor, `load_simulators.py:252-260`. -/
def initHeating (D : LoadData C H Opt) (n : Nat) (outside : Rat) (included : Bool) : Except PyErr (Option H) :=
  if included then (D.heatingInit n outside).map some else .ok none

/-- `__init__`, `load_simulators.py:186-262`, with `_instantiate_activity_simulator` (26-57), `TimeAwareSimulator.__init__` (`base_simulators.py:696-723`) and the check of the number of households (`base_simulators.py:448-474`). No
initialisation step is made: the initialisation time is the start. -/
def create (D : LoadData C H Opt) (n : Nat) (start : Int) (args : LoadArgs C) : Except PyErr (LoadSim C H) := do
  if n = 0 then .error .valueError
  else do
    let counts ← samplePopulation n D.pdf .realPopulation
    let activity ← LoadAct.create D counts start args.activity args.activityInit
    let active ← activity.activeOccupancy
    let appliances ← OccSim.create D.apps D.profiles D.switchedOn D.full D.refresh D.dataStep D.groups counts none start { args.appliances with initial := some active } args.appliancesInit
    let outside := match args.climate with
      | some c => D.outside c
      | none => args.initialOutside
    let light ← LightSim.create D.lights n "off" "randn" args.light
    let heating ← initHeating D n outside args.heating
    .ok { minute := 0, time := start, activity := activity, appliances := appliances, light := light, climate := args.climate, heating := heating }

/-- The temperature or the irradiance: the given one, or that of the climate simulator, `load_simulators.py:298-308`; `None` has no getters. -/
def external (given : Option Rat) (climate : Option C) (get : C → Rat) : Except PyErr Rat :=
  match given, climate with
  | some v, _ => .ok v
  | none, some c => .ok (get c)
  | none, none => .error .attributeError

/-- The step of the activity simulator, `load_simulators.py:312-313`. -/
def stepActivity (D : LoadData C H Opt) (s : LoadSim C H) (draws : List Rat) : Except PyErr LoadAct :=
  if s.minute % 10 = 0 then s.activity.step D draws else .ok s.activity

/-- The step of the heating simulator, `load_simulators.py:320-343`, with the values of the other simulators after their steps. -/
def stepHeating (D : LoadData C H Opt) (heating : Option H) (outside irradiance : Rat) (activity : LoadAct) (appliances : OccSim) (light : LightSim) (opt : Opt) : Except PyErr (Option H) :=
  match heating with
  | none => .ok none
  | some h => do
    let gains : List Int ← activity.thermalGains
    let appGains ← appliances.powerDemand
    let h ← D.heatingStep h { outside := outside, irradiance := irradiance, dhw := appliances.dhwDemand, occupancy := gains.map fun x : Int => (x : Rat), light := light.powerDemand, appliances := appGains, opt := opt }
    .ok (some h)

/-- `step`, `load_simulators.py:264-344`. -/
def step (D : LoadData C H Opt) (s : LoadSim C H) (i : LoadStepIn Opt) : Except PyErr (LoadSim C H) := do
  let climate := s.climate.map D.climateStep
  if climate.isNone && (i.irradiance.isNone || i.outside.isNone) then .error .valueError
  else do
    let outside ← external i.outside climate D.outside
    let irradiance ← external i.irradiance climate D.irradiance
    let activity ← s.stepActivity D i.activity
    let active ← activity.activeOccupancy
    let appliances ← s.appliances.step D.profiles D.refresh active i.appliances
    let light ← s.light.step active irradiance i.light
    let heating ← stepHeating D s.heating outside irradiance activity appliances light.1 i.opt
    .ok { minute := s.minute + 1, time := s.time + 60000000, activity := activity, appliances := appliances, light := light.1, climate := climate, heating := heating }

/-- Several steps. (`load_simulators.py:264-344`) -/
def run (D : LoadData C H Opt) : LoadSim C H → List (LoadStepIn Opt) → Except PyErr (LoadSim C H)
  | s, [] => .ok s
  | s, i :: is => do
    let s ← s.step D i
    run D s is

/-- `_heating` in `get_power_demand`, `load_simulators.py:350-354`. -/
def heatingPower (D : LoadData C H Opt) (n : Nat) (heating : Option H) : Except PyErr (List (Option Rat)) :=
  match heating with
  | some h => D.heatingPower h
  | none => .ok (List.replicate n (some 0))

/-- `get_power_demand`, `load_simulators.py:347-359`; the arrays have one entry per household, NaN is `none`. -/
def powerDemand (D : LoadData C H Opt) (n : Nat) (s : LoadSim C H) : Except PyErr (List (Option Rat)) := do
  let heating ← heatingPower D n s.heating
  let a ← s.appliances.powerDemand
  .ok ((a.zip (s.light.powerDemand.zip heating)).map fun q => q.2.2.map fun e => q.1 + q.2.1 + e)

end LoadSim

end Demod
