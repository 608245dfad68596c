import Verif.Model.Individuals

/-!
# Construction and steps of `SubgroupsIndividualsActivitySimulator` with semi-Markov chains

`demod/simulators/activity_simulators.py` (551-874), with `subsimulator=SemiMarkovSimulator`. `load` is `data.load_tpm_with_duration`, a pure function of the subgroup. The draws are arguments:
`d i` for the initial states and durations of sub-simulator `i` and `us i` for those of a step.
-/

namespace Demod

/-- What `load_tpm_with_duration` returns (`activity_simulators.py:757-763`): the matrices, the durations, the labels, the initial distribution and those of the initial durations. -/
structure SemiData (L : Type) where
  tpm : Tpms
  durations : Durations
  labels : List L
  initial : List Rat
  initialDurations : List (List Rat)

/-- `data.load_tpm_with_duration`, `activity_simulators.py:757-763`. -/
abbrev SemiLoader (L : Type) := Subgroup → Except PyErr (SemiData L)

/-- The instance variables of the simulator (`activity_simulators.py:579-632`). -/
structure SemiIndividuals (L : Type) where
  sims : List (SemiMarkov L)
  hhOfPersons : List Nat
  nHouseholds : Nat
  nResidents : List Int
  activityLabels : List L
  subgroups : List Subgroup
  time : Int

namespace SemiIndividuals
variable {L : Type} [DecidableEq L]

/-- What the getters of the simulator read: the states and the labels of the sub-simulators. (`activity_simulators.py:840-905`) -/
def ind (s : SemiIndividuals L) : Individuals L :=
  { sims := s.sims.map (·.chain), hhOfPersons := s.hhOfPersons, nHouseholds := s.nHouseholds, nResidents := s.nResidents, activityLabels := s.activityLabels }

/-- One sub-simulator of `_initialize_sub_SemiMarkovSimulator`, `activity_simulators.py:747-776`. -/
def createSub (load : SemiLoader L) (subgroup : Subgroup) (nPersons : Nat) (us vs : List Rat) : Except PyErr (SemiMarkov L) := do
  let r ← load subgroup
  let m ← Markov.create nPersons r.labels.length r.tpm r.labels
  let c ← m.initialise r.initial true us
  SemiMarkov.initialise c r.initialDurations r.durations vs

/-- `_update_tpms_SemiMarkovSimulator`, `activity_simulators.py:795-806`. -/
def updateTpms (load : SemiLoader L) (m : SemiMarkov L) (subgroup : Subgroup) : Except PyErr (SemiMarkov L) := do
  let r ← load subgroup
  let c ← m.chain.setTpm r.tpm.mats true (some r.labels)
  ({ m with chain := c } : SemiMarkov L).setDurations r.durations

/-- `on_after_refresh_time`, `activity_simulators.py:865-874`, with `_update_subgroups_with_time` (700-710). -/
def refreshDay (load : SemiLoader L) (f : DayFlags) (s : SemiIndividuals L) : Except PyErr (SemiIndividuals L) :=
  if f.aware then do
    let subgroups ← s.subgroups.mapM fun g => addTime g s.time f.weekEndsDays f.weekSatSun f.sevenDays f.quarters
    let sims ← (s.sims.zip subgroups).mapM fun q => updateTpms load q.1 q.2
    .ok { s with sims := sims, subgroups := subgroups }
  else .ok s

/-- `step`, `activity_simulators.py:859-863`: all the sub-simulators, the clock, then the callback (`base_simulators.py:903-918`), which compares the time before the step. -/
def step (load : SemiLoader L) (f : DayFlags) (refresh : Int) (s : SemiIndividuals L) (us : Nat → (Nat → Rat) × (Nat → Rat)) : Except PyErr (SemiIndividuals L) := do
  let sims ← s.sims.zipIdx.mapM fun q => q.1.step (us q.2).1 (us q.2).2
  let s' : SemiIndividuals L := { s with sims := sims, time := s.time + 600000000 }
  if firesAfterRefresh refresh s.time 600000000 then s'.refreshDay load f else .ok s'

/-- Several steps. (`activity_simulators.py:859-863`) -/
def run (load : SemiLoader L) (f : DayFlags) (refresh : Int) : SemiIndividuals L → List (Nat → (Nat → Rat) × (Nat → Rat)) → Except PyErr (SemiIndividuals L)
  | s, [] => .ok s
  | s, us :: uss => do
    let s ← s.step load f refresh us
    run load f refresh s uss

/-- `__init__`, `activity_simulators.py:551-632`, as `IndividualsSim.create`, with the sub-simulators of `_initialize_sub_SemiMarkovSimulator` (747-776). -/
def create (load : SemiLoader L) (f : DayFlags) (refresh : Int) (groups : List (Subgroup × Nat)) (start : Int) (stepSize : Int) (d : Nat → List Rat × List Rat)
    (e : Nat → Nat → (Nat → Rat) × (Nat → Rat)) : Except PyErr (SemiIndividuals L) := do
  let persons ← groups.mapM fun g => toPersons g.1
  let res ← groups.mapM IndividualsSim.residents
  if groups = [] then .error .valueError
  else do
    let parsed := parseSubgroups (persons.zip (groups.map (·.2)))
    let sims ← (parsed.1.zip parsed.2.1).zipIdx.mapM fun q => createSub load q.1.1 q.1.2 (d q.2).1 (d q.2).2
    match sims with
    | [] => .error .valueError
    | first :: _ =>
      if stepSize ≠ 600000000 then .error .valueError
      else do
        let initDt ← initDatetime start (.time refresh)
        let delta := start - initDt
        let n := delta.tdiv stepSize
        run load f refresh
          { sims := sims, hhOfPersons := parsed.2.2, nHouseholds := (groups.map (·.2)).sum, nResidents := res.flatten, activityLabels := first.chain.labels, subgroups := parsed.1,
            time := initDt + delta.fmod stepSize } ((List.range n.toNat).map e)

end SemiIndividuals

end Demod
