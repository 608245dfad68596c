import Verif.Model.OccSim

/-!
# The whole `ActivityApplianceSimulator` (`demod/simulators/appliance_simulators.py` 1271-1493)

Construction, steps and getters with their arrays of households and appliances; `Model/Appliance.lean` follows one appliance of one household. A dictionary of activities is the list of its items. The random draws are
arguments. The arrays of activities have one entry per household: numpy would also accept some others, which here are a `ValueError`. There are no initialisation steps.
-/

namespace Demod

/-- The number of residents per household that perform each activity, `utils/sim_types.py:1-40`, as in `appliance_simulators.py:1416-1459`. -/
abbrev Activities := List (Str × List Nat)

/-- The instance variables of the simulator (`appliance_simulators.py:109-170, 1310-1406`). -/
structure ActSim where
  apps : List AppData
  owned : List (List Bool)
  choice : ProfileChoice
  left : List (List Rat)
  till : List (List Int)
  used : List (List Bool)
  prev : Activities

namespace ActSim

/-- The positions of a mask of households and a mask of appliances: `np.where(hh[:, np.newaxis] & app[np.newaxis, :])`, `appliance_simulators.py:1443-1455`; also `np.repeat` and `np.tile` of their indices, 1390-1397. -/
def cross (hh app : List Bool) : List (Nat × Nat) := trueAt (hh.map fun b => app.map fun c => b && c)

/-- `switch_on` with `_switch_on_variable_loads` and `_switch_on_constant_loads`, `appliance_simulators.py:571-619, 1477-1483`. -/
def switchOn (s : ActSim) (at' : List (Nat × Nat)) : Except PyErr ActSim := do
  let variable' := at'.filter fun q => s.choice.varLoad q.2
  let constant := at'.filter fun q => !s.choice.varLoad q.2
  let xs : List AppData ← variable'.mapM fun q => pyGet s.apps q.2
  let durations := variable'.map fun q => s.choice.duration q.1 q.2
  let s : ActSim := { s with
    left := setEntries s.left variable' (durations.map fun (d : Nat) => (d : Rat))
    till := setEntries s.till variable' ((durations.zip xs).map fun q => ((q.1 + q.2.delay : Nat) : Int))
    used := setEntries s.used variable' (variable'.map fun _ => true) }
  .ok { s with used := setEntries s.used constant (constant.map fun _ => true) }

/-- `switch_off`, `appliance_simulators.py:1485-1488`. -/
def switchOff (s : ActSim) (at' : List (Nat × Nat)) : ActSim := { s with used := setEntries s.used at' (at'.map fun _ => false) }

/-- `update_iteration_variables`, `appliance_simulators.py:1461-1475, 655-659`: the profiles that come to their end are loaded again. -/
def update (s : ActSim) : ActSim :=
  let before := s.left.map fun r => r.map fun x => decide (x > 0)
  let left := s.left.map fun r => r.map fun x => if x > 0 then x - 1 else x
  let till := s.till.map fun r => r.map fun x => if x > 0 then x - 1 else x
  let reload := trueAt ((before.zip left).zipIdx.map fun r => (r.1.1.zip r.1.2).zipIdx.map fun q => q.1.1 && !decide (q.1.2 > 0) && s.choice.varLoad q.2)
  { s with
    left := setEntries left reload (reload.map fun q => (left.getD q.1 []).getD q.2 0 + s.choice.duration q.1 q.2)
    till := setEntries till reload (reload.map fun q => (till.getD q.1 []).getD q.2 0 + s.choice.duration q.1 q.2) }

/-- The loop over one activity in `step`, `appliance_simulators.py:1425-1455`. -/
def activity (s : ActSim) (act : Str) (n : List Nat) : Except PyErr ActSim :=
  let these := s.apps.map fun x => decide (x.info.activity = act)
  if !(these.any id) then .ok s
  else match s.prev.lookup act with
    | none => .error .keyError
    | some p =>
      if p.length ≠ s.owned.length ∨ n.length ≠ s.owned.length then .error .valueError
      else
        let stops := (p.zip n).map fun q => decide (q.1 ≠ q.2) && decide (q.2 = 0)
        let off := (these.zip s.apps).map fun q => q.1 && q.2.switchOff
        let s := if stops.any id then s.switchOff (cross stops off) else s
        let starts := (p.zip n).map fun q => decide (q.1 ≠ q.2) && decide (q.1 = 0)
        if starts.any id then s.switchOn (cross starts these) else .ok s

/-- `step`, `appliance_simulators.py:1416-1459`. -/
def step (s : ActSim) (acts : Activities) : Except PyErr ActSim := do
  let s ← acts.foldlM (fun s q => s.activity q.1 q.2) s
  .ok { s with prev := acts }.update

/-- Several steps. (`appliance_simulators.py:1416-1459`) -/
def run : ActSim → List Activities → Except PyErr ActSim
  | s, [] => .ok s
  | s, i :: is => do
    let s ← s.step i
    run s is

/-- `_initialize_real_loads`, `appliance_simulators.py:532-551`, when no appliance is in use: the first steps of the always-on appliances with a profile; `draw` is what is drawn above 1. -/
def initialLeft (apps : List AppData) (choice : ProfileChoice) (draw : Nat → Nat → Nat) (owned : List (List Bool)) : Except PyErr (List (List Rat)) :=
  (List.range owned.length).mapM fun h => apps.zipIdx.mapM fun q => (initialSteps (decide (q.1.info.activity ∈ alwaysOn)) (choice.duration h q.2) (draw h q.2)).map fun (k : Nat) => (k : Rat)

/-- The arguments of the constructor besides the data and the activities, and the random draws: what is owned, the profiles of the two kinds, the point of the profiles at which always-on appliances start, the initial
delays. (`appliance_simulators.py:117-170, 532-551, 1310-1336`) -/
structure ActArgs where
  equip : EquipAlgo
  real : ProfileAlgo
  uOwned : Nat → Nat → Rat
  draw : Nat → Nat → Nat
  draw' : Nat → Nat → Nat
  start : Nat → Nat → Nat
  delay : Nat → Nat → Nat

/-- The loop over one activity in `initialize_starting_state`, `appliance_simulators.py:1389-1397`. -/
def initActivity (s : ActSim) (act : Str) (n : List Nat) : Except PyErr ActSim :=
  if n.length ≠ s.owned.length then .error .valueError
  else s.switchOn (cross (n.map fun k => decide (k > 0)) (s.apps.map fun x => decide (x.info.activity = act)))

/-- `__init__` and `initialize_starting_state`, `appliance_simulators.py:1310-1406`, with those of `AppliancesSimulator` (109-170) and `Simulator` (`base_simulators.py:448-518`): the simulator when the logger visits it for the
first time, and the simulator that is returned. Without appliances the arrays of delays has a wrong shape, which is an `IndexError` in `update_iteration_variables`. -/
def createLogged (apps : List AppData) (flags : Bool) (switchedOn full : ProfilesDict (List Rat)) (groups : List Subgroup) (ns : List Nat) (acts : Activities) (args : ActArgs) : Except PyErr (ActSim × ActSim) := do
  let n := ns.sum
  let parsed : List Subgroup × List Nat ← parseHouseholds n (some groups) (some ns)
  let apps := apps.filter fun x => decide (x.info.activity ∈ acts.map (·.1) ++ alwaysOn) && (!flags || !x.info.probabilistic)
  if n = 0 then .error .valueError
  else do
    let owned : List (List Bool) ← sampleAvailable (apps.map (·.info)) parsed.1 parsed.2 args.uOwned args.equip
    let choice ← chooseProfiles (apps.map (·.info)) (fun h a => (owned.getD h []).getD a false) switchedOn full args.draw args.draw' args.real
    let left ← initialLeft apps choice args.start owned
    let till := (List.range n).map fun h => apps.zipIdx.map fun q => if q.1.delay > 0 then ((args.delay h q.2 % q.1.delay : Nat) : Int) else 0
    let s : ActSim := { apps := apps, owned := owned, choice := choice, left := left, till := till, used := owned.map fun r => r.map fun _ => false, prev := [] }
    let first := s
    let s ← acts.foldlM (fun s q => s.initActivity q.1 q.2) { s with prev := acts }
    if apps = [] then .error .indexError
    else
      let s := s.update
      .ok (first, { s with used := s.used.map fun r => (r.zip apps).map fun q => q.1 || decide (q.2.info.activity ∈ alwaysOn) })

/-- The simulator that is returned. (`appliance_simulators.py:1310-1336`) -/
def create (apps : List AppData) (flags : Bool) (switchedOn full : ProfilesDict (List Rat)) (groups : List Subgroup) (ns : List Nat) (acts : Activities) (args : ActArgs) : Except PyErr ActSim :=
  (createLogged apps flags switchedOn full groups ns acts args).map (·.2)

/-! ## Getters -/

/-- `get_current_usage`, `appliance_simulators.py:1490-1493`. -/
def usage (s : ActSim) : List (List Bool) := (s.used.zip s.owned).map fun r => (r.1.zip r.2).map fun q => q.1 && q.2

/-- `get_current_power_consumptions`, `appliance_simulators.py:673-701`. -/
def powers (s : ActSim) : Except PyErr (List (List Rat)) := powersOf s.apps s.choice s.owned s.left s.usage

/-- `get_power_demand`, `appliance_simulators.py:786-788`. -/
def powerDemand (s : ActSim) : Except PyErr (List Rat) := do
  let p : List (List Rat) ← s.powers
  .ok (p.map List.sum)

/-- `get_current_water_consumptions`, `appliance_simulators.py:800-817`. -/
def water (s : ActSim) : List (List Rat) := s.usage.map fun r => (r.zip s.apps).map fun q => (if q.1 then 1 else 0) * q.2.flow

/-- `get_dhw_heating_demand`, `appliance_simulators.py:819-845`. -/
def dhwDemand (s : ActSim) : List Rat := s.water.map Appl.dhwDemand

end ActSim

end Demod
