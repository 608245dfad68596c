import Verif.Model.Activity
import Verif.Model.Time

/-!
# Construction and steps of `SubgroupsIndividualsActivitySimulator` with first order chains

`demod/simulators/activity_simulators.py` (551-874). `load` is `data.load_tpm`, a pure function of the subgroup; the draws are arguments: `d k i` for the `k`-th sampling of sub-simulator `i`.
-/

namespace Demod

/-- The flags of the constructor, `activity_simulators.py:557-560`. -/
structure DayFlags where
  weekEndsDays : Bool
  weekSatSun : Bool
  sevenDays : Bool
  quarters : Bool
deriving DecidableEq

/-- `time_aware`, `activity_simulators.py:586-588`. -/
def DayFlags.aware (f : DayFlags) : Bool := f.weekEndsDays || f.sevenDays || f.quarters || f.weekSatSun

/-- What `load_tpm` returns (`activity_simulators.py:728-732`): the matrices, the labels and the initial distribution. -/
abbrev TpmLoader (L : Type) := Subgroup → Except PyErr (Tpms × List L × List Rat)

/-- The instance variables of the simulator: those of its getters, the subgroups of the persons and the clock. (`activity_simulators.py:579-632`) -/
structure IndividualsSim (L : Type) where
  ind : Individuals L
  subgroups : List Subgroup
  time : Int

namespace IndividualsSim
variable {L : Type} [DecidableEq L]

/-- One sub-simulator of `_initialize_sub_MarkovChain1rstOrder`, `activity_simulators.py:727-743`. The tests of the distributions are the default ones. -/
def createSub (load : TpmLoader L) (subgroup : Subgroup) (nPersons : Nat) (us : List Rat) : Except PyErr (Markov L) := do
  let (tpm, labels, initial) ← load subgroup
  let m ← Markov.create nPersons labels.length tpm labels
  m.initialise initial true us

/-- `n_residents`, `activity_simulators.py:666-670`: `KeyError` without this entry; it must be a number. -/
def residents (g : Subgroup × Nat) : Except PyErr (List Int) :=
  match lookupA g.1 kNResidents with
  | none => .error .keyError
  | some (.int n) => .ok (List.replicate g.2 n)
  | some _ => .error .typeError

/-- `on_after_refresh_time`, `activity_simulators.py:865-874`, with `_update_subgroups_with_time` (700-710) and `_update_tpms_MarkovChain1rstOrder` (786-793). -/
def refreshDay (load : TpmLoader L) (f : DayFlags) (s : IndividualsSim L) : Except PyErr (IndividualsSim L) :=
  if f.aware then do
    let subgroups ← s.subgroups.mapM fun g => addTime g s.time f.weekEndsDays f.weekSatSun f.sevenDays f.quarters
    let sims ← (s.ind.sims.zip subgroups).mapM fun q => do
      let (tpm, labels, _) ← load q.2
      q.1.setTpm tpm.mats true (some labels)
    .ok { s with ind := { s.ind with sims := sims }, subgroups := subgroups }
  else .ok s

/-- `step`, `activity_simulators.py:859-863`: all the sub-simulators, the clock, then the callback (`base_simulators.py:903-918`), which compares the time before the step. -/
def step (load : TpmLoader L) (f : DayFlags) (refresh : Int) (s : IndividualsSim L) (us : Nat → List Rat) : Except PyErr (IndividualsSim L) := do
  let sims ← s.ind.sims.zipIdx.mapM fun q => q.1.step (us q.2)
  let s' : IndividualsSim L := { s with ind := { s.ind with sims := sims }, time := s.time + 600000000 }
  if firesAfterRefresh refresh s.time 600000000 then s'.refreshDay load f else .ok s'

/-- Several steps. (`activity_simulators.py:859-863`) -/
def run (load : TpmLoader L) (f : DayFlags) (refresh : Int) : IndividualsSim L → List (Nat → List Rat) → Except PyErr (IndividualsSim L)
  | s, [] => .ok s
  | s, us :: uss => do
    let s ← s.step load f refresh us
    run load f refresh s uss

/-- `__init__`, `activity_simulators.py:551-632`, with `_parse_subgroups_input` (656-698) and the initialisation from the refresh time (`base_simulators.py:758-793`): the simulator is put to the last
refresh time before the start, plus the remainder of the division by the step size, and stepped to the start. `d 0` are the draws of the initial states. Subgroups are equal if they have the same entries in the same
order. `np.concatenate` raises `ValueError` for no subgroup. -/
def create (load : TpmLoader L) (f : DayFlags) (refresh : Int) (groups : List (Subgroup × Nat)) (start : Int) (stepSize : Int) (d : Nat → Nat → List Rat) : Except PyErr (IndividualsSim L) := do
  let persons ← groups.mapM fun g => toPersons g.1
  let res ← groups.mapM residents
  if groups = [] then .error .valueError
  else do
    let parsed := parseSubgroups (persons.zip (groups.map (·.2)))
    let sims ← (parsed.1.zip parsed.2.1).zipIdx.mapM fun q => createSub load q.1.1 q.1.2 (d 0 q.2)
    match sims with
    | [] => .error .valueError
    | first :: _ =>
      if stepSize ≠ 600000000 then .error .valueError
      else do
        let initDt ← initDatetime start (.time refresh)
        let delta := start - initDt
        let n := delta.tdiv stepSize
        let ind : Individuals L := { sims := sims, hhOfPersons := parsed.2.2, nHouseholds := (groups.map (·.2)).sum, nResidents := res.flatten, activityLabels := first.labels }
        run load f refresh { ind := ind, subgroups := parsed.1, time := initDt + delta.fmod stepSize } ((List.range n.toNat).map fun k => d (k + 1))

end IndividualsSim
end Demod
