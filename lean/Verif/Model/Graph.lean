import Verif.Model.Metrics
import Mathlib.Data.List.Dedup

/-! # Model of the duration and graph metrics, `demod/metrics/states.py`

Shares and means are exact rationals instead of floats. Dictionaries are lists of keys and values. -/

namespace Demod

section
variable {σ : Type} [DecidableEq σ]

/-- `get_durations_by_states`, `states.py:81-100`. The keys are listed in the order of their last
occurrence instead of sorted: only look-ups are made in the dictionary. -/
def durationsByStates (D : Diaries σ) : Except PyErr (List (σ × List Int)) := do
  let ds ← getStatesDurations D
  .ok ((ds.map (·.2)).dedup.map fun s => (s, (ds.filter fun q => decide (q.2 = s)).map (·.1)))

/-- `dic[state]` on such a dictionary: `KeyError` on a missing key. (`states.py:81-100`) -/
def stateGet (d : List (σ × List Int)) (s : σ) : Except PyErr (List Int) :=
  match d.find? fun q => decide (q.1 = s) with
  | some q => .ok q.2
  | none => .error .keyError

/-- `np.cumsum(np.bincount(durations, minlength=n_times + 1) / len(durations))`,
`states.py:356-363`: `bincount` rejects negative values. -/
def durationCdf (ds : List Int) (nT : Nat) : Except PyErr (List Rat) :=
  if ds.any fun d => decide (d < 0) then .error .valueError
  else .ok (cumsum ((bincount (ds.map Int.toNat) (nT + 1)).map fun (n : Nat) => (n : Rat) / (ds.length : Rat)))

/-- One pass of the loop, `states.py:354-367`: the absolute difference of the two cumulative
distributions, which must have the same length. -/
def durationErr (sim mes : List (σ × List Int)) (nT : Nat) (s : σ) : Except PyErr (List Rat) := do
  let a ← stateGet sim s
  let cdfSim ← durationCdf a nT
  let b ← stateGet mes s
  let cdfMes ← durationCdf b nT
  if cdfSim.length = cdfMes.length then .ok (cdfSim.zipWith (fun x y => |x - y|) cdfMes)
  else .error .valueError

/-- `state_duration_distribution_metric`, `states.py:293-372`, `average` being
`average_over_timestep`: a mean is returned as a list of length 1. The python set is iterated in
some order, which only matters for which exception is raised when there are several. -/
def stateDurationMetric (simulated measured : Diaries σ) (average : Bool) : Except PyErr (List (σ × List Rat)) := do
  let sim ← durationsByStates simulated
  let mes ← durationsByStates measured
  (sim.map (·.1) ++ mes.map (·.1)).dedup.mapM fun s => do
    let err ← durationErr sim mes measured.nT s
    Except.ok (s, if average then [err.sum / (err.length : Rat)] else err)

end

/-- One time step of the loop of `graph_metrics`, `states.py:171-179`: weight of the edge from `i` to
`j` at time `t`, counted with `np.unique` on the pairs of the last and the current state. The
first time step is compared with the last one (line 168). -/
def edgeWeight (D : Diaries Nat) (t i j : Nat) : Nat :=
  (List.range D.nP).countP fun p => decide (D.prev p t = i ∧ D.at' p t = j)

/-- The edges `(times, source_nodes, end_nodes)` with their weights, `states.py:183-195`. -/
def graphEdges (D : Diaries Nat) : List (Nat × Nat × Nat × Nat) :=
  (List.range D.nT).flatMap fun t => (List.range (maxState D + 1)).flatMap fun i =>
    (List.range (maxState D + 1)).filterMap fun j =>
      if edgeWeight D t i j ≠ 0 then some (t, i, j, edgeWeight D t i j) else none

/-- The sum of the weights of some edges. (`states.py:185-194`) -/
def weightSum (es : List (Nat × Nat × Nat × Nat)) : Rat := (es.map fun e => (e.2.2.2 : Rat)).sum

/-- `graph_metrics`, `states.py:119-210`: network size, density, centrality and homophily. The names of the
nodes `"time_state"` are pairs here: source and end of an edge are both labelled with the time of
the edge (lines 185-194). An empty array has no maximum (`ValueError`); a single time step makes
the maximal number of edges zero (`ZeroDivisionError`: a division of python integers). -/
def graphMetrics (D : Diaries Nat) : Except PyErr (Nat × Rat × Rat × Rat) :=
  if D.nP = 0 ∨ D.nT = 0 then .error .valueError
  else
    let edges := graphEdges D
    let size := (edges.flatMap fun e => [(e.1, e.2.1), (e.1, e.2.2.1)]).dedup.length
    let possible : Nat := (D.nT - 1) * (uniqueSorted (edges.map (·.2.1))).length ^ 2
    if possible = 0 then .error .zeroDivisionError
    else
      .ok (size, (edges.length : Rat) / (possible : Rat), weightSum edges / (edges.length : Rat),
        weightSum (edges.filter fun e => decide (e.2.2.1 = e.2.1)) / weightSum edges)

end Demod
