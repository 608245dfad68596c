import Verif.Model.Activity
import Verif.Model.Crest
import Verif.Model.Individuals
import Verif.Model.Time

/-!
# The whole 4-states simulator (`Crest4StatesModel`, `demod/simulators/crest_simulators.py`, lines 92-341)

The simulator is made from `data.load_tpm` (`load`; for the CREST workbook this is `crestLoadTpm`) and from the distribution of the households over the subgroups (`load_population_subgroups`). The draws of a step are one list with a value for each household: the
sub-simulators take theirs one after the other. The logger (`Model/Logger.lean`) is left out.
-/

namespace Demod

/-- A `CrestOccupancySimulator`: its attribute `n_residents` and the Markov chain. (`crest_simulators.py:92-159`) -/
structure CrestSub where
  residents : Nat
  chain : Markov Nat
deriving DecidableEq

/-- A `Crest4StatesModel`: the sub-simulators, the attribute `n_residents`, whether `current_day_type` is `'d'`, and `current_time`. (`crest_simulators.py:228-308`) -/
structure CrestSim where
  subs : List CrestSub
  residents : List Nat
  weekday : Bool
  time : Int
deriving DecidableEq

namespace CrestSim

/-- The subgroup made of the number of residents and the type of day, `crest_simulators.py:143-146, 322-327`. -/
def groupOf (n : Nat) (weekday : Bool) : Subgroup := [(kNResidents, .int n), (kWeekday, if weekday then kWeekdays else kWeekend)]

/-- `CrestOccupancySimulator.__init__`, `crest_simulators.py:115-159`. -/
def createSub (load : TpmLoader Nat) (nHouseholds n : Nat) (weekday : Bool) (us : List Rat) : Except PyErr CrestSub := do
  let (T, labels, start) ← load (groupOf n weekday)
  let m ← Markov.create nHouseholds ((n + 1) ^ 2) T labels
  let m ← m.initialise start true us
  .ok { residents := n, chain := m }

/-- The sub-simulators, for numbers of residents and of households, `crest_simulators.py:275-280`. -/
def createSubs (load : TpmLoader Nat) (weekday : Bool) : List (Nat × Nat) → List Rat → Except PyErr (List CrestSub)
  | [], _ => .ok []
  | q :: l, us => do
    let s ← createSub load q.2 q.1 weekday (us.take q.2)
    let r ← createSubs load weekday l (us.drop q.2)
    .ok (s :: r)

/-- The steps of the sub-simulators, `MultiSimulator.step` (`base_simulators.py:588-612`) without arguments; each draws one number per household. -/
def stepSubs : List CrestSub → List Rat → Except PyErr (List CrestSub)
  | [], _ => .ok []
  | s :: l, us => do
    let m ← s.chain.step (us.take s.chain.states.length)
    let r ← stepSubs l (us.drop s.chain.states.length)
    .ok ({ s with chain := m } :: r)

/-- The matrices of the other type of day for a sub-simulator, `crest_simulators.py:326-330`. -/
def reloadSub (load : TpmLoader Nat) (weekday : Bool) (s : CrestSub) : Except PyErr CrestSub := do
  let (T, labels, _) ← load (groupOf s.residents weekday)
  let m ← s.chain.setTpm T.mats true (some labels)
  .ok { s with chain := m }

/-- `step`, `crest_simulators.py:338-341`, with the callback `on_after_refresh_time` (310-330) and `TimeAwareSimulator.step` (`base_simulators.py:795-803`). -/
def step (load : TpmLoader Nat) (refresh : Int) (s : CrestSim) (us : List Rat) : Except PyErr CrestSim := do
  let subs ← stepSubs s.subs us
  let time := s.time + 600000000
  if firesAfterRefresh refresh s.time 600000000 then
    if Markov.crestWeekday time != s.weekday then
      let subs ← subs.mapM (reloadSub load (Markov.crestWeekday time))
      .ok { s with subs := subs, weekday := Markov.crestWeekday time, time := time }
    else .ok { s with subs := subs, time := time }
  else .ok { s with subs := subs, time := time }

/-- Several steps. (`crest_simulators.py:338-341`) -/
def run (load : TpmLoader Nat) (refresh : Int) : CrestSim → List (List Rat) → Except PyErr CrestSim
  | s, [] => .ok s
  | s, us :: uss => do
    let s ← s.step load refresh us
    run load refresh s uss

/-- `subgroup['n_residents']` converted to an integer, `crest_simulators.py:255-257`: `KeyError` without this entry, `ValueError` for a list (numpy cannot make an array of integers of it). A negative number becomes 0,
which `load_tpm` refuses as well. -/
def residentsOf (g : Subgroup) : Except PyErr Nat :=
  match lookupA g kNResidents with
  | none => .error .keyError
  | some (.int n) => .ok n.toNat
  | some (.list _) => .error .valueError

/-- `__init__`, `crest_simulators.py:232-308`. `groups` and `pdf` are the result of `load_population_subgroups('resident_number')`, `refresh` the attribute `refresh_time` of the data, `algo` the argument
`population_sampling_algo`, `stepGiven` says whether `step_size` is given; `us` are the draws of the starting states and `e` those of the steps of the initialisation (`base_simulators.py:725-793`). The attribute `n_residents` (lines 299-304) is set before these. -/
def create (load : TpmLoader Nat) (groups : List Subgroup) (pdf : List Rat) (refresh : Int) (n : Nat) (algo : PopAlgo) (stepGiven : Bool) (start : Int) (us : List Rat) (e : Nat → List Rat) : Except PyErr CrestSim := do
  let labels ← groups.mapM residentsOf
  let numbers ← samplePopulation n pdf algo
  if numbers.length ≠ labels.length then .error .indexError
  else do
    let weekday := Markov.crestWeekday start
    let sizes := (labels.zip numbers).filter fun q => decide (0 < q.2)
    let subs ← createSubs load weekday sizes us
    if stepGiven then .error .valueError
    else if numbers.sum = 0 then .error .valueError
    else do
      let initDt ← initDatetime start (.time refresh)
      let delta := start - initDt
      run load refresh { subs := subs, residents := (sizes.map fun q => List.replicate q.2 q.1).flatten, weekday := weekday, time := initDt + delta.fmod 600000000 } ((List.range (delta.tdiv 600000000).toNat).map e)

/-! ## Getters -/

/-- `get_states_labeled`, `crest_simulators.py:332-336`. -/
def statesLabeled (s : CrestSim) : Except PyErr (List Nat) := do
  let l ← s.subs.mapM fun q => q.chain.currentLabels
  .ok l.flatten

/-- `get_occupancy`, collected from the sub-simulators (`crest_simulators.py:161-163`, `base_simulators.py:632-645`). -/
def occupancy (s : CrestSim) : Except PyErr (List Nat) := do
  let l ← s.subs.mapM fun q => q.chain.crestOccupancy
  .ok l.flatten

/-- `get_active_occupancy`, collected from the sub-simulators (`crest_simulators.py:165-170`, `base_simulators.py:632-645`). -/
def activeOccupancy (s : CrestSim) : Except PyErr (List Nat) := do
  let l ← s.subs.mapM fun q => q.chain.crestActive
  .ok l.flatten

/-- `get_thermal_gains`, collected from the sub-simulators (`crest_simulators.py:172-188`, `base_simulators.py:632-645`). -/
def thermalGains (s : CrestSim) : Except PyErr (List Int) := do
  let l ← s.subs.mapM fun q => q.chain.crestGains
  .ok l.flatten

end CrestSim

end Demod
