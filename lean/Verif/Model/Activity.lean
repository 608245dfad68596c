import Verif.Model.Markov
import Verif.Model.Sparse
import Verif.Model.Utils

/-!
# Activity simulators: individuals grouped into households, packed household states, CREST occupancy

`demod/simulators/activity_simulators.py` (478-905), `demod/simulators/sparse_simulators.py`, `demod/simulators/crest_simulators.py` (92-341).
-/

namespace Demod

/-! ## Individuals (`SubgroupsIndividualsActivitySimulator`) -/

/-- The inner loop of `_parse_subgroups_input`, `activity_simulators.py:683-691`, for one person of a subgroup with `n` households after `off` others:
`acc` are the lists `hh_of_person`. `list.index` cannot fail, since `unique` has all the persons. -/
def addPerson {P : Type} [DecidableEq P] (unique : List P) (off n : Nat) (acc : List (List Nat)) (p : P) : List (List Nat) :=
  acc.modify (unique.idxOf p) fun l => l ++ (List.range n).map fun hh => off + hh

/-- The loop over the subgroups, `activity_simulators.py:682-693`. -/
def hhLoop {P : Type} [DecidableEq P] (unique : List P) : Nat → List (List P × Nat) → List (List Nat) → List (List Nat)
  | _, [], acc => acc
  | off, g :: gs, acc => hhLoop unique (off + g.2) gs (g.1.foldl (addPerson unique off g.2) acc)

/-- `persons_counted`, `activity_simulators.py:680, 687`. -/
def countLoop {P : Type} [DecidableEq P] (unique : List P) : List (List P × Nat) → List Nat → List Nat
  | [], acc => acc
  | g :: gs, acc => countLoop unique gs (g.1.foldl (fun acc p => acc.modify (unique.idxOf p) fun c => c + g.2) acc)

/-- The distinct persons. `np.unique` sorts them; the order only permutes the sub-simulators. Here they are in order of
first occurrence. (`activity_simulators.py:673-676`) -/
def uniquePersons {P : Type} [DecidableEq P] (groups : List (List P × Nat)) : List P := (groups.map (·.1)).flatten.eraseDups

/-- `_parse_subgroups_input`, `activity_simulators.py:656-698`, from the persons and the number of households of each subgroup: the distinct persons, how
many of each, and `hh_of_persons`. -/
def parseSubgroups {P : Type} [DecidableEq P] (groups : List (List P × Nat)) : List P × List Nat × List Nat :=
  let unique := uniquePersons groups
  (unique, countLoop unique groups (unique.map fun _ => 0), (hhLoop unique 0 groups (unique.map fun _ => [])).flatten)

/-- The instance variables of `SubgroupsIndividualsActivitySimulator` used by its getters. (`activity_simulators.py:656-698`) -/
structure Individuals (L : Type) where
  sims : List (Markov L)
  hhOfPersons : List Nat
  nHouseholds : Nat
  nResidents : List Int
  activityLabels : List L

namespace Individuals
variable {L : Type} [DecidableEq L]

/-- `get_n_doing_activity` for one activity, `activity_simulators.py:840-854`: the mask must have as many entries as there are
persons, and `states_in_hh[u] = c` needs `u` below the number of households (both `IndexError` otherwise). -/
def nDoing (s : Individuals L) (a : L) : Except PyErr (List Nat) := do
  let masks ← s.sims.mapM fun m => m.nDoingActivity a
  let mask := masks.flatten
  if mask.length ≠ s.hhOfPersons.length then .error .indexError
  else
    let hh := gather mask s.hhOfPersons
    if hh.all fun h => decide (h < s.nHouseholds) then .ok ((List.range s.nHouseholds).map fun h => hh.count h)
    else .error .indexError

/-- `get_occupancy(states)`, `activity_simulators.py:885-892`: the number of residents minus `states['away']`. -/
def occupancy (s : Individuals L) (states : List (L × List Nat)) (away : L) : Except PyErr (List Int) :=
  match lookupA states away with
  | none => .error .keyError
  | some c => if c.length ≠ s.nResidents.length then .error .valueError else .ok (List.zipWith (fun r (n : Nat) => r - (n : Int)) s.nResidents c)

/-- `get_active_occupancy(states)`, `activity_simulators.py:894-905`. -/
def activeOccupancy (s : Individuals L) (states : List (L × List Nat)) (away sleeping : L) : Except PyErr (List Int) := do
  let occ ← s.occupancy states away
  match lookupA states sleeping with
  | none => .error .keyError
  | some c => if c.length ≠ occ.length then .error .valueError else .ok (List.zipWith (fun r (n : Nat) => r - (n : Int)) occ c)

/-- The dictionary of `get_activity_states`, `activity_simulators.py:876-883`, without its last entry. -/
def labelStates (s : Individuals L) : Except PyErr (List (L × List Nat)) :=
  s.activityLabels.mapM fun lab => (s.nDoing lab).map fun c => (lab, c)

/-- `get_activity_states`: the numbers of persons and the active occupancy. (`activity_simulators.py:876-883`) -/
def activityStates (s : Individuals L) (away sleeping : L) : Except PyErr (List (L × List Nat) × List Int) := do
  let states ← s.labelStates
  let act ← s.activeOccupancy states away sleeping
  .ok (states, act)

/-- `get_occupancy()` and `get_active_occupancy()`. (`activity_simulators.py:885-905`) -/
def getOccupancy (s : Individuals L) (away sleeping : L) : Except PyErr (List Int) := do
  let q ← s.activityStates away sleeping
  s.occupancy q.1 away

end Individuals

/-- One step of a sub-simulator at time `t`, followed by `on_after_refresh_time` (`activity_simulators.py:865-874`, with the
decorator `base_simulators.py:903-918`). `load t` are the matrices and labels for the current day. -/
def Markov.timedStep {L : Type} [DecidableEq L] (aware : Bool) (load : Int → List (List (List Rat)) × List L) (refresh step t : Int) (m : Markov L)
    (us : List Rat) : Except PyErr (Markov L) := do
  let m ← m.step us
  if aware && firesAfterRefresh refresh t step then m.setTpm (load (t + step)).1 true (some (load (t + step)).2)
  else .ok m

/-- Several steps, the first at time `t`. (`activity_simulators.py:859-863`) -/
def Markov.timedRun {L : Type} [DecidableEq L] (aware : Bool) (load : Int → List (List (List Rat)) × List L) (refresh step : Int) :
    Int → Markov L → List (List Rat) → Except PyErr (Markov L)
  | _, m, [] => .ok m
  | t, m, us :: uss => do
    let m ← Markov.timedStep aware load refresh step t m us
    Markov.timedRun aware load refresh step (t + step) m uss

/-! ## Packed household states (`sparse_simulators.py`) -/

/-- `MAX_PEOPLE_HOUSEHOLD`, `sparse_simulators.py:28-30`. -/
def maxPeople : Nat := 7

/-- The entry of `get_n_doing_state(k)` for a household with the given label, `sparse_simulators.py:195-201`. -/
def unpack (label k : Nat) : Nat := label % maxPeople ^ (k + 1) / maxPeople ^ k

/-- `_getstart_time_step_from_datetime`, `sparse_simulators.py:161-169`. -/
def startTimeStep (t : Int) : Int :=
  let minute := timeOfDay t % HOUR / 60000000
  let hour := hourOf t
  minute / 10 + 6 * (if hour ≥ 4 then hour - 4 else hour + 20)

/-- The time dependent entries of `subgroup_kwargs`. (`sparse_simulators.py:520-550`) -/
structure DayClass where
  weekday : SubVal
  quarter : Option Int
deriving DecidableEq

/-- The instance variables of a `SparseTransitStatesSimulator` (labels are packed numbers). (`sparse_simulators.py:92-159`) -/
structure SparseSim where
  tpm : SparseTPM
  labels : List Nat
  states : List Nat
  timeStep : Nat
  aware : Bool
  time : Int
  nDays : Nat
  useQuarters : Bool
  dayClass : Option DayClass
  nResidents : Int
  activityLabels : List Str

namespace SparseSim

/-- `assign_sparse_tpm_and_labels`, `sparse_simulators.py:48-84` (with labels; the matrices of a `SparseTPM` are always square). -/
def assignTpm (s : SparseSim) (tpm : SparseTPM) (labels : List Nat) : Except PyErr SparseSim :=
  if labels.length ≠ tpm.nStates then .error .valueError else .ok { s with tpm := tpm, labels := labels }

/-- The day class of a time, `sparse_simulators.py:530-545`. -/
def dayClassOf (nDays : Nat) (useQuarters : Bool) (old : Option DayClass) (t : Int) : Option DayClass :=
  let weekday : Option SubVal :=
    if nDays = 0 then some (.int 0)
    else if nDays = 2 then if isoWeekday t ≤ 5 then some (.list [1, 2, 3, 4, 5]) else some (.list [6, 7])
    else if nDays = 7 then some (.int (isoWeekday t))
    else old.map (·.weekday)
  weekday.map fun w => { weekday := w, quarter := if useQuarters then some ((((dateAt t).month : Int) - 1) / 3) else none }

/-- `update_new_day`, `sparse_simulators.py:520-588`. `load` is `data.load_sparse_tpm`. The order of `np.unique` does not matter; here it is the
order of first occurrence. Positions that are not found become `labels[0]`: a label used as a position. -/
def updateNewDay (load : Option DayClass → Except PyErr (SparseTPM × List Nat)) (s : SparseSim) : Except PyErr SparseSim := do
  let c := dayClassOf s.nDays s.useQuarters s.dayClass s.time
  let (tpm, labels) ← load c
  let old ← s.states.mapM (pyGet s.labels)
  let unique := old.eraseDups
  let inverse := old.map fun l => unique.idxOf l
  let positions : List Int := unique.map fun lab =>
    match Markov.positionsOf lab labels with
    | [i] => (i : Int)
    | _ => -1
  match labels with
  | [] => .error .indexError
  | first :: _ =>
    let positions := positions.map fun p => if p = -1 then first else p.toNat
    let states ← inverse.mapM (pyGet positions)
    let s : SparseSim := { s with states := states, dayClass := c }
    s.assignTpm { tpm with dead := some 0 } labels

/-- `step`, `sparse_simulators.py:289-306`; `fuel` bounds the recursion of `sparse_monte_carlo`. -/
def step (load : Option DayClass → Except PyErr (SparseTPM × List Nat)) (fuel : Nat) (s : SparseSim) (us : List Rat) : Except PyErr SparseSim := do
  let s ← if s.aware then
      let s : SparseSim := { s with time := s.time + 600000000 }
      if s.timeStep % 144 = 0 then s.updateNewDay load else .ok s
    else .ok s
  let s : SparseSim := { s with timeStep := s.timeStep + 1 }
  let (_, new) ← s.tpm.sparseMC fuel ((s.timeStep : Int) - 1) s.states us
  .ok { s with states := new }

/-- Several steps. (`sparse_simulators.py:289-306`) -/
def run (load : Option DayClass → Except PyErr (SparseTPM × List Nat)) (fuel : Nat) : SparseSim → List (List Rat) → Except PyErr SparseSim
  | s, [] => .ok s
  | s, us :: uss => do
    let s ← s.step load fuel us
    run load fuel s uss

/-- `__init__` and `initialize_starting_state` from the sampled states, `sparse_simulators.py:119-159, 258-281`, with
`Simulator.initialize_starting_state` (`base_simulators.py:502-511`): the day is updated, then `start` steps are made, where `start` is the time slot of
`start_datetime`. There is one list of draws per step. -/
def initialise (load : Option DayClass → Except PyErr (SparseTPM × List Nat)) (fuel : Nat) (s : SparseSim) (uss : List (List Rat)) : Except PyErr SparseSim := do
  let s ← if s.aware then s.updateNewDay load else .ok s
  let start := if s.aware then (startTimeStep s.time).toNat else 0
  run load fuel { s with timeStep := 0 } (uss.take start)

/-- `get_n_doing_state` with a number, `sparse_simulators.py:193-201`. -/
def nDoingNumber (s : SparseSim) (k : Nat) : Except PyErr (List Nat) := do
  let labs ← s.states.mapM (pyGet s.labels)
  .ok (labs.map fun l => unpack l k)

/-- `get_n_doing_state` with a name, `sparse_simulators.py:203-215`: `int(*np.where(…))` fails for several positions. -/
def nDoing (s : SparseSim) (a : Str) : Except PyErr (List Nat) :=
  match Markov.positionsOf a s.activityLabels with
  | [] => .error .valueError
  | [k] => s.nDoingNumber k
  | _ => .error .typeError

/-- `get_occupancy`, `sparse_simulators.py:486-501`. -/
def occupancy (s : SparseSim) : Except PyErr (List Int) := do
  let hwh ← s.nDoing "HWH".toList
  let hoh ← s.nDoing "HOH".toList
  .ok ((List.zipWith (· + ·) hwh hoh).map fun (n : Nat) => s.nResidents - (n : Int))

/-- `get_active_occupancy`, `sparse_simulators.py:464-484`. -/
def activeOccupancy (s : SparseSim) : Except PyErr (List Int) := do
  let occ ← s.occupancy
  let act ← s.nDoing "active".toList
  .ok (List.zipWith (fun o (a : Nat) => min o (a : Int)) occ act)

/-- `get_thermal_gains`, `sparse_simulators.py:503-518`. -/
def thermalGains (s : SparseSim) : Except PyErr (List Int) := do
  let act ← s.activeOccupancy
  let hoh ← s.nDoing "HOH".toList
  let hwh ← s.nDoing "HWH".toList
  let dormants := List.zipWith (fun (q : Nat × Nat) (a : Int) => s.nResidents - (q.1 : Int) - (q.2 : Int) - (a : Int)) (hoh.zip hwh) act
  .ok (List.zipWith (fun d a => 84 * d + 147 * a) dormants act)

end SparseSim

/-! ## CREST occupancy (`CrestOccupancySimulator`, `crest_simulators.py:161-188`) -/

namespace Markov

/-- `state_labels[current_states]` (`sparse_simulators.py:289-306`) -/
def currentLabels {L : Type} (m : Markov L) : Except PyErr (List L) := m.states.mapM (pyGet m.labels)

/-- `get_occupancy` (`crest_simulators.py:161-163`) -/
def crestOccupancy (m : Markov Nat) : Except PyErr (List Nat) := (m.currentLabels).map fun ls => ls.map fun l => l / 10

/-- `get_active_occupancy` (`crest_simulators.py:165-170`) -/
def crestActive (m : Markov Nat) : Except PyErr (List Nat) := (m.currentLabels).map fun ls => ls.map fun l => min (l / 10) (l % 10)

/-- `get_thermal_gains` (`crest_simulators.py:172-188`) -/
def crestGains (m : Markov Nat) : Except PyErr (List Int) := do
  let ls ← m.currentLabels
  let act ← m.crestActive
  let dormants := ls.map fun l => max (((l / 10 : Nat) : Int) - ((l % 10 : Nat) : Int)) 0
  .ok (List.zipWith (fun d (a : Nat) => 84 * d + 147 * (a : Int)) dormants act)

/-- `current_day_type == 'd'` for a time, `crest_simulators.py:274, 318`. -/
def crestWeekday (t : Int) : Bool := decide (isoWeekday t ≤ 5)

/-- A step of a sub-simulator of `Crest4StatesModel` at time `t` followed by `on_after_refresh_time`, `crest_simulators.py:310-330`. The `Bool` is
`current_day_type == 'd'`, `load` is `data.load_tpm` for the subgroup. -/
def crestStep (load : Bool → List (List (List Rat)) × List Nat) (refresh step t : Int) (q : Bool × Markov Nat) (us : List Rat) :
    Except PyErr (Bool × Markov Nat) := do
  let m ← q.2.step us
  if firesAfterRefresh refresh t step then
    let d := crestWeekday (t + step)
    if d != q.1 then
      let m ← m.setTpm (load d).1 true (some (load d).2)
      .ok (d, m)
    else .ok (q.1, m)
  else .ok (q.1, m)

/-- Several steps, the first at time `t`. (`crest_simulators.py:310-341`) -/
def crestRun (load : Bool → List (List (List Rat)) × List Nat) (refresh step : Int) :
    Int → Bool × Markov Nat → List (List Rat) → Except PyErr (Bool × Markov Nat)
  | _, q, [] => .ok q
  | t, q, us :: uss => do
    let q ← crestStep load refresh step t q us
    crestRun load refresh step (t + step) q uss

end Markov

end Demod
