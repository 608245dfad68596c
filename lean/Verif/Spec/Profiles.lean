import Verif.Model.Profiles

/-! # What the load profiles must satisfy -/

namespace Demod

/-- Types and names without `&`, and without repetition. -/
def CleanProfiles {α : Type} (d : ProfilesDict α) : Prop :=
  (d.map (·.1)).Nodup ∧ ∀ t ∈ d, '&' ∉ t.1 ∧ (t.2.map (·.1)).Nodup ∧ ∀ n ∈ t.2, '&' ∉ n.1

/-- The smallest number of intervals of `sec` seconds that cover `n` seconds. -/
def IsCeil (n sec m : Nat) : Prop := n ≤ m * sec ∧ ∀ m', n ≤ m' * sec → m ≤ m'

end Demod
