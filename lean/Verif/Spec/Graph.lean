import Verif.Spec.Metrics
import Mathlib.Data.Finset.Image
import Mathlib.Data.Finset.Prod
import Mathlib.Algebra.BigOperators.Group.Finset.Basic

/-! # What the duration and the graph metrics measure -/

namespace Demod

section
variable {σ : Type} [DecidableEq σ]

/-- The state occurs somewhere in the patterns. -/
def Occurs (D : Diaries σ) (s : σ) : Prop := ∃ p t, p < D.nP ∧ t < D.nT ∧ D.at' p t = s

/-- Some pattern is not constant. -/
def SomeChange (D : Diaries σ) : Prop := ∃ p t, p < D.nP ∧ t < D.nT ∧ D.at' p t ≠ D.at' p 0

/-- The lengths of all the runs of a state. -/
def runsOf (D : Diaries σ) (s : σ) : List Nat :=
  (((List.range D.nP).flatMap (patternRuns D)).filter fun r => decide (r.2 = s)).map (·.1)

/-- The share of the runs of a state that last `d`. -/
def shareAt (D : Diaries σ) (s : σ) (d : Nat) : Rat := ((runsOf D s).count d : Rat) / ((runsOf D s).length : Rat)

/-- The share of the runs of a state that last `d` or less. -/
def shareUpTo (D : Diaries σ) (s : σ) (d : Nat) : Rat :=
  ((runsOf D s).countP (fun x => decide (x ≤ d)) : Rat) / ((runsOf D s).length : Rat)

/-- The documented metric: the sum over the durations `1 … T` of the absolute differences of the
cumulative shares, over `T`. -/
def documentedDistance (A B : Diaries σ) (s : σ) : Rat :=
  ((List.range B.nT).map fun d => |shareUpTo A s (d + 1) - shareUpTo B s (d + 1)|).sum / B.nT

end

/-- The state of person `p` one time step before `t`, on the circular day. -/
def stateBefore (D : Diaries Nat) (p t : Nat) : Nat := D.at' p (if t = 0 then D.nT - 1 else t - 1)

/-- The states that are observed at time `t`. -/
def statesAt (D : Diaries Nat) (t : Nat) : Finset Nat := (Finset.range D.nP).image fun p => D.at' p t

/-- The states that are observed one step before `t`. -/
def statesBefore (D : Diaries Nat) (t : Nat) : Finset Nat := (Finset.range D.nP).image fun p => stateBefore D p t

/-- All the observed states. -/
def allStates (D : Diaries Nat) : Finset Nat := (Finset.range D.nT).biUnion (statesAt D)

/-- The observed edges: time, state before, state. -/
def observedEdges (D : Diaries Nat) : Finset (Nat × Nat × Nat) :=
  (Finset.range D.nT ×ˢ Finset.range D.nP).image fun q => (q.1, stateBefore D q.2 q.1, D.at' q.2 q.1)

/-- The person-steps in which the state does not change. -/
def keptSteps (D : Diaries Nat) : Finset (Nat × Nat) :=
  (Finset.range D.nT ×ˢ Finset.range D.nP).filter fun q => stateBefore D q.2 q.1 = D.at' q.2 q.1

end Demod
