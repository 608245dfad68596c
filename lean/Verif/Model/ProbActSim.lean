import Verif.Model.ActSim
import Verif.Model.Follow

/-!
# The whole `ProbabiliticActivityAppliancesSimulator` (`demod/simulators/appliance_simulators.py` 1496-1956)

Construction, steps and getters with their arrays of households and appliances; `Model/Appliance.lean` follows one appliance of one household and `Model/Follow.lean` the appliances that follow others. A dictionary of activities is
the list of its items. The random draws are arguments. The arrays of activities have one entry per household: numpy would also accept some others, which here are a `ValueError`. There are no initialisation steps: the simulator
would pass itself to them as the activities. `n_steps_till_refresh` is left out: it only enters `get_mask_available_appliances`, which this simulator does not use.
-/

namespace Demod

/-- What the data say for a subgroup, `appliance_simulators.py:1656-1667`: `load_yearly_target_switchons`, `load_activity_probabilities` (the mean over the day) and `load_daily_activity_starts`. -/
structure ActStats where
  targets : List (Str × Rat)
  probs : List (Str × Rat)
  starts : List (Str × List Rat)

/-- The instance variables of the simulator, `appliance_simulators.py:109-170, 1542-1587, 1753-1762`, with the cached value of `get_current_usage`. -/
structure ProbActSim where
  apps : List AppData
  owned : List (List Bool)
  choice : ProfileChoice
  probs : List (List Rat)
  left : List (List Rat)
  prev : Activities
  cache : Option (List (List Bool))

/-- The random draws of a step, `appliance_simulators.py:1764-1848`: the streams of `np.random.uniform` and of `np.random.poisson` (in `switch_on`) for the appliances that follow others, for those that follow an activity, and
for those that go with an activity. -/
structure ProbDraws where
  uType : Nat → Rat
  uEnd : Str → Nat → Rat
  uAct : Str → Nat → Rat
  vType : Nat → Nat
  vEnd : Str → Nat → Nat
  vAct : Str → Nat → Nat

namespace ProbActSim

/-- The computation of `get_current_usage`, `appliance_simulators.py:661-671`. -/
def usageNow (s : ProbActSim) : List (List Bool) := (s.left.zip s.owned).map fun r => (r.1.zip r.2).map fun q => decide (q.1 > 0) && q.2

/-- `get_current_usage`, `appliance_simulators.py:661-671`, a cached getter (`base_simulators.py:15-36`). -/
def usage (s : ProbActSim) : List (List Bool) := s.cache.getD s.usageNow

/-- What a call of `get_current_usage`, or of a getter that uses it, leaves behind. (`appliance_simulators.py:661-671`) -/
def observe (s : ProbActSim) : ProbActSim := { s with cache := some s.usage }

/-- `switch_on` with `_switch_on_variable_loads` and `_switch_on_constant_loads`, `appliance_simulators.py:571-636`; `v` is the stream of `np.random.poisson`. -/
def switchOn (s : ProbActSim) (v : Nat → Nat) (at' : List (Nat × Nat)) : Except PyErr ProbActSim := do
  let variable' := at'.filter fun q => s.choice.varLoad q.2
  let constant := at'.filter fun q => !s.choice.varLoad q.2
  let left := setEntries s.left variable' (variable'.map fun q => (s.choice.duration q.1 q.2 : Rat))
  let durations ← durationsOf s.apps s.choice v constant
  .ok { s with left := setEntries left constant durations }

/-- `switch_off`, `appliance_simulators.py:1887-1893`. -/
def switchOff (s : ProbActSim) (at' : List (Nat × Nat)) : ProbActSim := { s with left := setEntries s.left at' (at'.map fun _ => 0) }

/-- `switch_on_probs[h, a]`, `appliance_simulators.py:1856-1885`. -/
def prob (s : ProbActSim) (q : Nat × Nat) : Rat := (s.probs.getD q.1 []).getD q.2 0

/-- `~get_current_usage()[h, a] * switch_on_probs[h, a]`, `appliance_simulators.py:1874-1885`. -/
def oneTimeProb (s : ProbActSim) (q : Nat × Nat) : Rat := (if (s.usage.getD q.1 []).getD q.2 false then 0 else 1) * s.prob q

/-- The draws against the probabilities: `np.random.uniform(size=len(probs)) < probs`, `appliance_simulators.py:1833-1835, 1908-1911, 1948-1951`, and the indices that are chosen. -/
def chosen (u : Nat → Rat) (p : Nat × Nat → Rat) (at' : List (Nat × Nat)) : List (Nat × Nat) := (at'.zipIdx.filter fun q => decide (u q.2 < p q.1)).map fun q => q.1

/-- The entries for `Model/Follow.lean`: the appliances, with the keys `'previous_appliance_type'` and `'previous_activity'`, without which the simulator is not created. (`appliance_simulators.py:1711, 1728`) -/
def followSim (s : ProbActSim) : ProbSim :=
  { households := s.owned.length, apps := s.apps.map (·.info), owned := fun h a => (s.owned.getD h []).getD a false, prob := fun h a => s.prob (h, a),
    switchOff := fun a => ((s.apps[a]?).map fun x => x.switchOff).getD false, hasType := true, hasActivity := true }

/-- `_compute_switch_on_probs`, `appliance_simulators.py:1856-1872`. -/
def actProb (s : ProbActSim) (q : Nat × Nat) : Rat := (if !(s.usage.getD q.1 []).getD q.2 false && !s.followSim.dictated q.2 then 1 else 0) * s.prob q

/-- The loop over one activity in `step`, `appliance_simulators.py:1798-1844`, with `_get_start_after_activity` (1895-1914). -/
def activity (d : ProbDraws) (s : ProbActSim) (act : Str) (n : List Nat) : Except PyErr ProbActSim :=
  let these := s.apps.map fun x => decide (x.info.activity = act)
  if !(these.any id) then .ok s
  else match s.prev.lookup act with
    | none => .error .keyError
    | some p =>
      if p.length ≠ s.owned.length ∨ n.length ≠ s.owned.length then .error .valueError
      else do
        let stops := (p.zip n).map fun q => decide (q.1 ≠ q.2) && decide (q.2 = 0)
        let off := (these.zip s.apps).map fun q => q.1 && q.2.switchOff
        let s := if stops.any id then s.switchOff (ActSim.cross stops off) else s
        let s := s.observe
        let s ← s.switchOn (d.vEnd act) (chosen (d.uEnd act) s.oneTimeProb (ActSim.cross stops (s.apps.map fun x => decide (x.info.previousActivity = some act))))
        s.switchOn (d.vAct act) (chosen (d.uAct act) s.actProb (ActSim.cross (n.map fun k => decide (k > 0)) these))

/-- `step`, `appliance_simulators.py:1764-1848`, with `_get_start_after_appliance` (1916-1956), and the end of the cache (`base_simulators.py:519-532`). -/
def step (s : ProbActSim) (acts : Activities) (d : ProbDraws) : Except PyErr ProbActSim := do
  let before := s.left.map fun r => r.map fun x => decide (x > 0)
  let left := s.left.map fun r => r.map fun x => if x > 0 then x - 1 else x
  let s := { s with left := left }
  let stopped := trueAt ((before.zip left).map fun r => (r.1.zip r.2).map fun q => q.1 && !decide (q.2 > 0))
  let after ← s.followSim.startAfter stopped
  let s := s.observe
  let s ← s.switchOn d.vType (chosen d.uType s.oneTimeProb after)
  let s ← acts.foldlM (fun s q => activity d s q.1 q.2) s
  .ok { s with prev := acts, cache := none }

/-- Several steps; before those marked by `true` the user, or a logger, calls a getter. (`appliance_simulators.py:1764-1848`) -/
def run : ProbActSim → List (Bool × Activities × ProbDraws) → Except PyErr ProbActSim
  | s, [] => .ok s
  | s, i :: is => do
    let s ← step (if i.1 then s.observe else s) i.2.1 i.2.2
    run s is

/-- A row of `switch_on_probs` with the infinite probabilities, which all draws meet, as 1 and those that are not a number, which none meets, as 0. (`appliance_simulators.py:1693-1746`) -/
def probRow (targets : List Rat) (out : List (Option Rat)) : List Rat := (targets.zip out).map fun q => q.2.getD (if q.1 > 0 then 1 else 0)

/-- The row of a subgroup in `sample_switch_on_probs`, `appliance_simulators.py:1648-1746`; `step` is in seconds. Lists of numbers of residents, with which numpy would compute arrays that often do not fit, are not modelled: here a `TypeError`, and excluded by the hypotheses of the theorems. -/
def groupRow (data : Subgroup → ActStats) (step : Rat) (apps : List AppInfo) (g : Subgroup) : Except PyErr (List Rat) := do
  let residents ← match lookupA g kNResidents with
    | none => Except.ok none
    | some (SubVal.int n) => .ok (some (n : Rat))
    | some (SubVal.list _) => .error .typeError
  let targets ← getOwnership (apps.map (·.type)) (data g).targets (apps.map (·.targetSwitchons))
  let out ← switchOnProbs step residents (data g).targets (data g).probs (data g).starts apps
  .ok (probRow targets out)

/-- `sample_switch_on_probs`, `appliance_simulators.py:1614-1751`: the rows of the households. Households of no subgroup keep zeros. -/
def switchOnRows (data : Subgroup → ActStats) (step : Rat) (apps : List AppInfo) (groups : List Subgroup) (hhTypes : List Nat) : Except PyErr (List (List Rat)) := do
  let rows : List (List Rat) ← groups.mapM (groupRow data step apps)
  .ok (hhTypes.map fun k => rows.getD k (apps.map fun _ => 0))

/-- `__init__` and `initialize_starting_state`, `appliance_simulators.py:1542-1612, 1753-1762`, with those of `AppliancesSimulator` (109-170). `flags` says whether the dictionary has the key `'probabilistic'`, `keys` whether it
has `'previous_appliance_type'` and `'previous_activity'` (`KeyError` in `sample_switch_on_probs` without them). `_initialize_real_loads` (532-551) leaves the usage in the cache, when everything is off. -/
def create (apps : List AppData) (flags keys : Bool) (switchedOn full : ProfilesDict (List Rat)) (data : Subgroup → ActStats) (step : Rat) (n : Nat) (groups : Option (List Subgroup)) (ns : Option (List Nat)) (acts : Activities)
    (args : ActSim.ActArgs) : Except PyErr ProbActSim := do
  let parsed : List Subgroup × List Nat ← parseHouseholds n groups ns
  let apps := apps.filter fun x => decide (x.info.activity ∈ acts.map (·.1) ++ alwaysOn) && (!flags || x.info.probabilistic)
  if n = 0 then .error .valueError
  else do
    let owned : List (List Bool) ← sampleAvailable (apps.map (·.info)) parsed.1 parsed.2 args.uOwned args.equip
    let choice ← chooseProfiles (apps.map (·.info)) (fun h a => (owned.getD h []).getD a false) switchedOn full args.draw args.draw' args.real
    if !keys && !parsed.1.isEmpty then .error .keyError
    else do
      let probs : List (List Rat) ← switchOnRows data step (apps.map (·.info)) parsed.1 parsed.2
      let left ← ActSim.initialLeft apps choice args.start owned
      .ok { apps := apps, owned := owned, choice := choice, probs := probs, left := left, prev := acts, cache := some (owned.map fun r => r.map fun _ => false) }

/-! ## Getters -/

/-- `get_current_power_consumptions`, `appliance_simulators.py:673-701`. -/
def powers (s : ProbActSim) : Except PyErr (List (List Rat)) := powersOf s.apps s.choice s.owned s.left s.usage

/-- `get_power_demand`, `appliance_simulators.py:786-788`. -/
def powerDemand (s : ProbActSim) : Except PyErr (List Rat) := do
  let p : List (List Rat) ← s.powers
  .ok (p.map List.sum)

/-- `get_current_water_consumptions`, `appliance_simulators.py:800-817`. -/
def water (s : ProbActSim) : List (List Rat) := s.usage.map fun r => (r.zip s.apps).map fun q => (if q.1 then 1 else 0) * q.2.flow

/-- `get_dhw_heating_demand`, `appliance_simulators.py:819-845`. -/
def dhwDemand (s : ProbActSim) : List Rat := s.water.map Appl.dhwDemand

end ProbActSim

end Demod
