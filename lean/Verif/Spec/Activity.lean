import Verif.Model.Activity

/-! # Persons, households and their activities -/

namespace Demod

/-- One entry per household: its persons. -/
def households {P : Type} (groups : List (List P × Nat)) : List (List P) := groups.flatMap fun g => List.replicate g.2 g.1

/-- The current label of every simulated person. -/
def personLabels {L : Type} (sims : List (Markov L)) : List (Option L) := sims.flatMap fun m => m.states.map fun s => m.labels[s]?

/-- The sub-simulators have the given numbers of persons and valid states, and the given labels, each in its own order. -/
def Simulate {L : Type} (sims : List (Markov L)) (counts : List Nat) (labels : List L) : Prop :=
  sims.map (fun m => m.states.length) = counts ∧ ∀ m ∈ sims, m.labels.Nodup ∧ (∀ a, a ∈ m.labels ↔ a ∈ labels) ∧ ∀ s ∈ m.states, s < m.labels.length

/-- The number of persons of household `h` whose label is `a`; `hh` are the households of the persons. -/
def personsDoing {L : Type} [DecidableEq L] (hh : List Nat) (sims : List (Markov L)) (h : Nat) (a : L) : Nat :=
  ((hh.zip (personLabels sims)).filter fun q => decide (q.1 = h ∧ q.2 = some a)).length

end Demod
