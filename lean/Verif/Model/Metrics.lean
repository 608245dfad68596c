import Verif.Model.Parse
import Mathlib.Algebra.Order.Ring.Rat
import Mathlib.Algebra.Order.Group.Unbundled.Abs
import Mathlib.Data.List.Sort

/-!
# Metrics (`demod/metrics/loads.py`, `demod/metrics/states.py`, `demod/metrics/errors.py`,
`demod/utils/converters.py`)

A two dimensional array is `Diaries`: `nP` rows (profiles), `nT` columns (times). Floats are
rationals; a division by zero, which is `inf` or NaN in numpy, is 0 here, so the theorems assume
non-zero denominators. `profiles_similarity`, `profiles_variety`, `count` and
`levenshtein_edit_distance` are in `Model/Similarity.lean`.
-/

namespace Demod

/-! ## Loads -/

/-- `np.max` of a one dimensional array; `ValueError` when empty. (`loads.py:101-138`) -/
def maxRat (xs : List Rat) : Except PyErr Rat :=
  match xs with
  | [] => .error .valueError
  | x :: xs => .ok (xs.foldl max x)

/-- Row `p` of an array. (`loads.py:18-37`) -/
def Diaries.row {σ : Type} (D : Diaries σ) (p : Nat) : List σ := (List.range D.nT).map fun t => D.at' p t

/-- `np.sum(profiles, axis=0)` (`loads.py:101-138`) -/
def colSums (D : Diaries Rat) : List Rat := (List.range D.nT).map fun t => (D.col t).sum

/-- `np.mean(profiles, axis=0)` (`loads.py:205-219`) -/
def colMeans (D : Diaries Rat) : List Rat := (List.range D.nT).map fun t => (D.col t).sum / (D.nP : Rat)

/-- `total_energy_consumed`, `loads.py:18-37`; `step` is `step_size.total_seconds()`. -/
def totalEnergy (step : Rat) (D : Diaries Rat) : List Rat :=
  (List.range D.nP).map fun p => (D.row p).sum * step

/-- `joules_to_kwh`, `converters.py:9-17`. -/
def joulesToKwh (x : Rat) : Rat := x / 3600000

/-- `kwh_to_joules`, `converters.py:20-28`. -/
def kwhToJoules (x : Rat) : Rat := x * 3600000

/-- `diversity_factor`, `loads.py:101-114`. -/
def diversityFactor (D : Diaries Rat) : Except PyErr Rat := do
  let maxLoads ← (List.range D.nP).mapM fun p => maxRat (D.row p)
  let peak ← maxRat (colSums D)
  .ok (maxLoads.sum / peak)

/-- `coincidence_factor`, `loads.py:117-126`, and `simultaneity_factor`, `loads.py:129-138`. -/
def coincidenceFactor (D : Diaries Rat) : Except PyErr Rat := do
  let d ← diversityFactor D
  .ok (1 / d)

/-- `time_coincident_demand`, `loads.py:205-219`. -/
def timeCoincidentDemand (D : Diaries Rat) : Except PyErr Rat := maxRat (colMeans D)

/-- The order of the loads. (`loads.py:222-260`) -/
def ratLt (a b : Rat) : Bool := decide (a < b)

/-- `np.sort` (`loads.py:222-260`) -/
def sortRat (xs : List Rat) : List Rat := xs.insertionSort (· ≤ ·)

/-- `load_duration`, `loads.py:222-260`, for a two dimensional array. `np.unique` sorts already. -/
def loadDuration (D : Diaries Rat) (loads : Option (List Rat)) : List Rat × List (List Nat) :=
  let loads := match loads with
    | none => sortRat (npUnique ratLt ((List.range D.nP).flatMap D.row))
    | some l => sortRat l
  (loads, (List.range D.nP).map fun p => loads.map fun l => (D.row p).countP fun x => decide (x ≥ l))

/-- `load_duration`, `loads.py:222-260`, for a one dimensional array: the result of `reshape` is dropped (line 252), so
the index with three axes (line 255) raises `IndexError`. -/
def loadDuration1d (_profile : List Rat) (_loads : Option (List Rat)) : Except PyErr (List Rat × List (List Nat)) :=
  .error .indexError

/-- The absolute changes between consecutive steps of all profiles, `loads.py:170-173`. -/
def demandChanges (D : Diaries Rat) : List Rat :=
  (List.range D.nP).flatMap fun p => (List.range (D.nT - 1)).map fun t => |D.at' p t - D.at' p (t + 1)|

/-- `np.histogram(xs, bins, range=(0, m))`, in exact arithmetic: values outside of the range are
dropped, the last bin is closed, and an empty range is replaced by `(-1/2, 1/2)`. (`loads.py:141-202`) -/
def histogram (xs : List Rat) (bins : Nat) (m : Rat) : List Nat :=
  let lo : Rat := if m = 0 then -1/2 else 0
  let hi : Rat := if m = 0 then 1/2 else m
  let kept := xs.filter fun x => decide (lo ≤ x) && decide (x ≤ hi)
  let idx := kept.map fun x => min ((x - lo) * bins / (hi - lo)).floor.toNat (bins - 1)
  (List.range bins).map fun i => idx.count i

/-- The end of `cumulative_changes_in_demand`, `loads.py:175-202`, from the list of the changes. -/
def cumulativeOf (changes : List Rat) (bins : Nat) (normalize : Bool) (edges : Option (List Rat)) :
    Except PyErr (List Nat × List Rat) := do
  let maxChange ← maxRat changes
  let changes := if normalize then (if maxChange = 0 then [] else changes.map (· / maxChange)) else changes
  let hist ← match edges with
    | none => if bins = 0 then .error .valueError else .ok (histogram changes bins maxChange)
    | some e =>
      match e.head?, e.getLast? with
      | some lo, some hi =>
        if maxChange ≥ hi then .error .valueError
        else if changes.any fun x => decide (x < lo) then .error .valueError
        else .ok (bincount (changes.map (searchsortedLeft e)) 0).tail
      | _, _ => .error .indexError
  .ok (hist, cumsum (hist.map fun (h : Nat) => (h : Rat) / ((hist.sum : Nat) : Rat)))

/-- `cumulative_changes_in_demand`, `loads.py:141-202`, returning the histogram and the cdf, without the
edges. `normalize` divides the changes by the largest one, while the range of the bins and the
comparison with the user's edges use the largest change before that division. All changes zero with
`normalize` give NaN in numpy, which no bin contains: no value is kept here. Integer profiles with
`normalize` raise in numpy (in-place division); here they are floats. -/
def cumulativeChanges (D : Diaries Rat) (bins : Nat) (normalize : Bool) (edges : Option (List Rat)) :
    Except PyErr (List Nat × List Rat) := cumulativeOf (demandChanges D) bins normalize edges

/-! ## States -/

section
variable {σ : Type} [DecidableEq σ]

/-- `np.where(states != np.roll(states, 1, axis=1))`, `states.py:39`: row by row. -/
def transitionIndices (D : Diaries σ) : List (Nat × Nat) :=
  (List.range D.nP).flatMap fun p =>
    ((List.range D.nT).filter fun t => decide (D.at' p t ≠ D.at' p (if t = 0 then D.nT - 1 else t - 1))).map fun t => (p, t)

/-- `np.roll(xs, -1)` (`states.py:18-78`) -/
def rollBack {α : Type} : List α → List α
  | [] => []
  | x :: xs => xs ++ [x]

/-- The positions of the first transition of each household, `states.py:45-47`. -/
def firstPositions (hh : List Nat) : List Nat :=
  if (uniqueSorted hh).length > 1 then
    (List.range hh.length).filter fun k => decide (hh.getD k 0 ≠ hh.getD (if k = 0 then hh.length - 1 else k - 1) 0)
  else [0]

/-- A python index, which counts from the end when negative. (`states.py:18-78`) -/
def pyIdx (n : Nat) (i : Int) : Except PyErr Nat :=
  if 0 ≤ i ∧ i < n then .ok i.toNat
  else if i < 0 ∧ -i ≤ n then .ok (n + i).toNat
  else .error .indexError

/-- `get_states_durations`, `states.py:18-78`: the durations with their states. Without any
transition the position 0 does not exist: `IndexError` (line 56). A pattern without time steps is
not modelled. -/
def getStatesDurations (D : Diaries σ) : Except PyErr (List (Int × σ)) := do
  let trs := transitionIndices D
  let time := trs.map (·.2)
  let first := firstPositions (trs.map (·.1))
  let last : List Int := rollBack (first.map fun (i : Nat) => (i : Int) - 1)
  let durations : List Int := (rollBack time).zipWith (fun (a b : Nat) => (a : Int) - (b : Int)) time
  let merged ← (last.zip first).mapM fun (q : Int × Nat) => do
    let k ← pyIdx time.length q.1
    let tl ← pyGet time k
    let tf ← pyGet time q.2
    Except.ok (k, (D.nT : Int) - (tl : Int) + (tf : Int))
  let durations := merged.foldl (fun d q => d.set q.1 q.2) durations
  let states := trs.map fun q => D.at' q.1 q.2
  let constant := (List.range D.nP).filter fun p => (List.range D.nT).all fun t => decide (D.at' p t = D.at' p 0)
  .ok (durations.zip states ++ constant.map fun p => ((D.nT : Int), D.at' p 0))

end

/-- `sparsity`, `states.py:213-222`, on the flattened array. -/
def sparsity (tpm : List Rat) : Rat := 1 - ((tpm.countP fun x => decide (x > 0) : Nat) : Rat) / (tpm.length : Rat)

/-- `average_state_metric` with `average_over_timestep`, `states.py:225-290`; arrays with different
numbers of times cannot be subtracted (`ValueError`; broadcasting of a single time step is not
modelled). -/
def averageStateErrors (A B : Diaries Rat) : Except PyErr (List Rat) :=
  if A.nT = B.nT then .ok ((colMeans A).zipWith (fun a b => |a - b|) (colMeans B)) else .error .valueError

/-- The average over the time steps, `states.py:286-290`. -/
def averageStateMetric (A B : Diaries Rat) : Except PyErr Rat := do
  let e ← averageStateErrors A B
  .ok (e.sum / (e.length : Rat))

/-- The argument of the square root of `RMSE`, `errors.py:8-21`, on flattened arrays of the same
shape. -/
def meanSquare (x y : List Rat) : Rat := ((x.zipWith (fun a b => (a - b) ^ 2) y).sum) / (x.length : Rat)

end Demod
