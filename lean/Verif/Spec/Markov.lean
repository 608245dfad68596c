import Verif.Model.Markov
import Mathlib.Algebra.Order.Ring.Rat

/-! # Specifications for the Markov chain simulators -/

namespace Demod

/-- A distribution. -/
def IsDist (p : List Rat) : Prop := (∀ x ∈ p, 0 ≤ x) ∧ p.sum = 1

/-- A non-empty sequence of transition matrices on `n` states. -/
def IsTpms (n : Nat) (mats : List (List (List Rat))) : Prop :=
  mats ≠ [] ∧ ∀ mat ∈ mats, mat.length = n ∧ ∀ row ∈ mat, row.length = n ∧ IsDist row

/-- `n` uniform draws. -/
def Draws (n : Nat) (us : List Rat) : Prop := us.length = n ∧ ∀ u ∈ us, 0 ≤ u ∧ u < 1

/-- `i` is the outcome for the draw `u`: the draw is in the `i`-th of the consecutive intervals of lengths `p[0]`, `p[1]`, … -/
def Sampled (p : List Rat) (u : Rat) (i : Nat) : Prop :=
  i < p.length ∧ (p.take i).sum ≤ u ∧ u < (p.take i).sum + p.getD i 0

/-- The row of a state in a matrix of a sequence. -/
def rowOf (mats : List (List (List Rat))) (k s : Nat) : List Rat := (mats.getD k []).getD s []

/-- The duration distributions are distributions: one per matrix of the cycle and (previous and) new state. -/
def IsDurations (n : Nat) : Durations → Prop
  | .perState d => d ≠ [] ∧ ∀ mat ∈ d, mat.length = n ∧ ∀ row ∈ mat, IsDist row
  | .perPrevious d => d ≠ [] ∧ ∀ mat ∈ d, mat.length = n ∧ ∀ rows ∈ mat, rows.length = n ∧ ∀ row ∈ rows, IsDist row

/-- The number of matrices. -/
def nDurations : Durations → Nat
  | .perState d => d.length
  | .perPrevious d => d.length

/-- The distribution of the duration of `new` entered from `previous`, in matrix `i`. -/
def durationRow (d : Durations) (i previous new : Nat) : List Rat :=
  match d with
  | .perState d => (d.getD i []).getD new []
  | .perPrevious d => ((d.getD i []).getD previous []).getD new []

/-- A stream of uniform draws. -/
def DrawStream (u : Nat → Rat) : Prop := ∀ k, 0 ≤ u k ∧ u k < 1

/-- Not probabilities: a negative number, or a sum that differs from 1 by a millionth or more. -/
def NoDist (row : List Rat) : Prop := (∃ x ∈ row, x < 0) ∨ row.sum ≤ 1 - 1 / 1000000 ∨ 1 + 1 / 1000000 ≤ row.sum

/-- Arrays of durations for another number of states than `n`, or with a row that is no distribution. -/
def BadDurations (n : Nat) : Durations → Prop
  | .perState d => ∃ mat ∈ d, mat.length ≠ n ∨ ∃ row ∈ mat, NoDist row
  | .perPrevious d => ∃ mat ∈ d, mat.length ≠ n ∨ ∃ rows ∈ mat, ∃ row ∈ rows, NoDist row

end Demod
