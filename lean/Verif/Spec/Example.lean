import Verif.Model.Example
import Mathlib.Data.Fintype.Card

/-!
# What the example simulators have to show
-/

namespace Demod

/-- Occupants of household `i` after the first `k` of the given movements. -/
def occupantsAfter {n : Nat} (start : Fin n → Int) (ms : List (Movement n)) (k : Nat) (i : Fin n) : Int :=
  start i + ((ms.take k).map fun m => m.arriving i).sum - ((ms.take k).map fun m => m.leaving i).sum

/-- The instant `t` lies between 4 and 5 in the morning. -/
def InHour4 (t : Int) : Prop := 4 * 3600000000 ≤ t % 86400000000 ∧ t % 86400000000 < 5 * 3600000000

instance (t : Int) : Decidable (InHour4 t) := by unfold InHour4; infer_instance

/-- The messages of a run from instant `t`: one for each step that enters the hour of 4 am, with the share of empty
households before the movements of that step. -/
noncomputable def messages {n : Nat} (step t : Int) (start : Fin n → Int) (ms : List (Movement n)) : List Rat :=
  (List.range ms.length).filterMap fun k : Nat =>
    if ¬ InHour4 (t + (k : Int) * step) ∧ InHour4 (t + ((k : Int) + 1) * step) then
      some (100 * ((((Finset.univ.filter fun i => occupantsAfter start ms k i = 0).card : Nat) : Rat) / ((n : Nat) : Rat)))
    else none

end Demod
