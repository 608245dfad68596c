import Verif.Model.Py

/-! # States and their transitions -/

namespace Demod

/-- A transition: its time, its person and its new state. -/
abbrev Change := Nat × Nat × Nat

/-- The transitions given as three lists. -/
def changeList (times persons new : List Nat) : List Change := times.zip (persons.zip new)

/-- The entries of a list where the mask is true. -/
def keptBy {α : Type} (mask : List Bool) (xs : List α) : List α := (mask.zip xs).filterMap fun q => if q.1 = true then some q.2 else none

/-- The first states: those given, or the new states of the transitions at time 0 in the order of the list. -/
def firstStates (R : List Change) (initial : Option (List Nat)) : List Nat :=
  initial.getD ((R.filter fun r => r.1 == 0).map fun r => r.2.2)

/-- With first states `first`, the transitions `R` give person `p` the state `v` at time `t`: either all transitions of `p` come
after `t` and `v` is the first state, or `v` is the new state of the latest transition of `p` up to `t`, the last one in the
list if there are several at that time. -/
def Shown (R : List Change) (first : Nat → Nat) (p t v : Nat) : Prop :=
  ((∀ r ∈ R, r.2.1 = p → t < r.1) ∧ v = first p) ∨
  ∃ (k : Nat) (r : Change), R[k]? = some r ∧ r.2.1 = p ∧ r.1 ≤ t ∧ r.2.2 = v ∧
    ∀ (j : Nat) (q : Change), R[j]? = some q → q.2.1 = p → q.1 ≤ t → q.1 < r.1 ∨ (q.1 = r.1 ∧ j ≤ k)

/-- The size `n` of an axis whose indices are `xs`: the given one, which exceeds all of them, or one more than the largest. -/
def AxisSize (given : Option Nat) (xs : List Nat) (n : Nat) : Prop :=
  (∀ x ∈ xs, x < n) ∧ ∃ x ∈ xs, given = some n ∨ (given = none ∧ x + 1 = n)

/-- The arguments of `transitions_to_states` that describe `nP` persons during `nT` times. -/
structure TransitionsFit (times persons new : List Nat) (initial : Option (List Nat)) (nTimes nPersons nStates : Option Nat) (nP nT : Nat) : Prop where
  persons_length : persons.length = times.length
  new_length : new.length = times.length
  times_size : AxisSize nTimes times nT
  persons_size : AxisSize nPersons persons nP
  states_size : ∃ n, AxisSize nStates new n ∧ (nStates = some n → ∃ i, initial = some i ∧ ∀ s ∈ i, s < n)
  first_length : (firstStates (changeList times persons new) initial).length = nP
  first_agree : ∀ p s, (0, p, s) ∈ changeList times persons new → (firstStates (changeList times persons new) initial)[p]? = some s

/-- A list of transitions sorted by person and, for one person, by time. -/
def ByPerson (R : List Change) : Prop := R.Pairwise fun a b => a.2.1 < b.2.1 ∨ (a.2.1 = b.2.1 ∧ a.1 ≤ b.1)

end Demod
