import Verif.Model.Activity

/-!
# The transit-states simulator and the subgroups activity simulator

`demod/simulators/sparse_simulators.py` (86-159, 230-281, 417-462, 623-684), with `Simulator` and `MultiSimulator` (`demod/simulators/base_simulators.py`).

Floats are rationals.
-/

namespace Demod

/-- `data.load_sparse_tpm` for a subgroup: the matrices, the labels of the states, the labels of the activities and the distribution of the starting states. The second argument is the day class that `update_new_day` puts into the subgroup, none for the subgroup as it was
given (`sparse_simulators.py:448-455, 546-549`). -/
abbrev SparseLoad := Subgroup → Option DayClass → Except PyErr (SparseTPM × List Nat × List Str × List Rat)

/-- What `update_new_day` takes of the loaded data, `sparse_simulators.py:546-549`. -/
def SparseLoad.day (L : SparseLoad) (g : Subgroup) : Option DayClass → Except PyErr (SparseTPM × List Nat) := fun c => (L g c).map fun q => (q.1, q.2.1)

/-- The keyword arguments of `SparseStatesSimulator.__init__`, `sparse_simulators.py:92-103`. -/
structure SparseArgs where
  aware : Bool
  start : Option Int
  quarters : Bool
  sevenDays : Bool
  weekEnds : Bool

/-- `n_different_days_to_use`, `sparse_simulators.py:137-148`. -/
def SparseArgs.nDays (a : SparseArgs) : Nat := if a.sevenDays && a.weekEnds then 0 else if a.sevenDays then 7 else if a.weekEnds then 2 else 0

/-- `n_residents`, `sparse_simulators.py:437-446`. A list of numbers is not modelled (the getters would then fail or broadcast): here a `TypeError`. -/
def sparseResidents (g : Subgroup) : Except PyErr Int :=
  match lookupA g kNResidents with
  | none => .ok 7
  | some (.int r) => .ok r
  | some (.list _) => .error .typeError

/-- The starting states, `sparse_simulators.py:248-270`, called with `checkcdf=False`. -/
def sparseStart (n nStates : Nat) (pdf us : List Rat) : Except PyErr (List Nat) := do
  if pdf.length ≠ nStates then .error .assertionError
  else do
    let states ← mcFromCdf (List.replicate n (cumsum pdf)) us
    if states.all (· < nStates) then .ok states else .error .assertionError

/-- `SparseTransitStatesSimulator.__init__`, `sparse_simulators.py:417-462`, with `SparseStatesSimulator.__init__` (92-159) and `Simulator.__init__` (`base_simulators.py:448-481`). `us` are the draws of the starting states, `e` those of the steps of the initialisation. -/
def SparseSim.create (L : SparseLoad) (fuel n : Nat) (g : Subgroup) (a : SparseArgs) (us : List Rat) (e : Nat → List Rat) : Except PyErr SparseSim := do
  let r ← sparseResidents g
  let (tpm, labels, acts, pdf) ← L g none
  if n = 0 then .error .valueError
  else if labels.length ≠ tpm.nStates then .error .valueError
  else if a.aware && a.start.isNone then .error .typeError
  else do
    let states ← sparseStart n tpm.nStates pdf us
    SparseSim.initialise (L.day g) fuel
      { tpm := tpm, labels := labels, states := states, timeStep := 0, aware := a.aware || a.start.isSome, time := a.start.getD 0, nDays := a.nDays, useQuarters := a.quarters, dayClass := none,
        nResidents := r, activityLabels := acts }
      ((List.range 144).map e)

/-! ## Several subgroups -/

/-- The sub-simulators of `SubgroupsActivitySimulator`, with their subgroups. (`sparse_simulators.py:656-663`) -/
abbrev SparseMulti := List (Subgroup × SparseSim)

namespace SparseMulti

/-- `simulators_list`, `sparse_simulators.py:656-660`: only the subgroups with households. Each sub-simulator makes its own draws; here the draws for all households are split. -/
def createSubs (L : SparseLoad) (fuel : Nat) (a : SparseArgs) : List (Subgroup × Nat) → List Rat → (Nat → List Rat) → Except PyErr SparseMulti
  | [], _, _ => .ok []
  | (g, n) :: l, us, e =>
    if 0 < n then do
      let s ← SparseSim.create L fuel n g a (us.take n) (fun j => (e j).take n)
      let r ← createSubs L fuel a l (us.drop n) (fun j => (e j).drop n)
      .ok ((g, s) :: r)
    else createSubs L fuel a l us e

/-- `SubgroupsActivitySimulator.__init__`, `sparse_simulators.py:623-663`, with `MultiSimulator.__init__` (`base_simulators.py:559-590`: the sum of no number of households is 0, which `Simulator.__init__` refuses). `zip` stops at the shorter list. -/
def create (L : SparseLoad) (fuel : Nat) (groups : List Subgroup) (counts : List Nat) (a : SparseArgs) (us : List Rat) (e : Nat → List Rat) : Except PyErr SparseMulti := do
  let subs ← createSubs L fuel a (groups.zip counts) us e
  if subs.isEmpty then .error .valueError else .ok subs

/-- `MultiSimulator.step`, `base_simulators.py:592-612`: every sub-simulator steps. -/
def step (L : SparseLoad) (fuel : Nat) : SparseMulti → List Rat → Except PyErr SparseMulti
  | [], _ => .ok []
  | (g, s) :: l, us => do
    let s' ← s.step (L.day g) fuel (us.take s.states.length)
    let r ← step L fuel l (us.drop s.states.length)
    .ok ((g, s') :: r)

/-- Several steps. (`base_simulators.py:592-612`) -/
def run (L : SparseLoad) (fuel : Nat) : SparseMulti → List (List Rat) → Except PyErr SparseMulti
  | m, [] => .ok m
  | m, us :: uss => do
    let m ← step L fuel m us
    run L fuel m uss

/-- `np.concatenate` of what a getter of the sub-simulators gives, `base_simulators.py:624-645`. -/
def collect {α : Type} (f : SparseSim → Except PyErr (List α)) (m : SparseMulti) : Except PyErr (List α) := do
  let l ← m.mapM fun q => f q.2
  .ok l.flatten

/-- The attribute `n_residents`, `base_simulators.py:585-590`. -/
def residents (m : SparseMulti) : List Int := (m.map fun q => List.replicate q.2.states.length q.2.nResidents).flatten

/-- `get_n_doing_activity`, `sparse_simulators.py:669-684`, with a name. -/
def nDoing (m : SparseMulti) (a : Str) : Except PyErr (List Nat) := collect (fun s => s.nDoing a) m

/-- `get_occupancy`, collected from the sub-simulators (`sparse_simulators.py:486-501`, `base_simulators.py:624-645`). -/
def occupancy (m : SparseMulti) : Except PyErr (List Int) := collect SparseSim.occupancy m

/-- `get_active_occupancy`, collected from the sub-simulators (`sparse_simulators.py:464-484`, `base_simulators.py:624-645`). -/
def activeOccupancy (m : SparseMulti) : Except PyErr (List Int) := collect SparseSim.activeOccupancy m

/-- `get_thermal_gains`, collected from the sub-simulators (`sparse_simulators.py:503-518`, `base_simulators.py:624-645`). -/
def thermalGains (m : SparseMulti) : Except PyErr (List Int) := collect SparseSim.thermalGains m

end SparseMulti

end Demod
