import Verif.Model.Survey
import Verif.Spec.Parse

/-! # What the occupancy of a diary is, and the households of a survey -/

namespace Demod

/-- The activity is a travel. -/
def Travelling (s : Int) : Prop := 900 ≤ s ∧ s ≠ 997 ∧ s ≠ 998 ∧ s ≠ 999

instance (s : Int) : Decidable (Travelling s) := by unfold Travelling; infer_instance

/-- Person `p` travels at time `t`, by one of the two activities. -/
def OnTheWay (P S : Diaries Int) (p t : Nat) : Prop := Travelling (P.at' p t) ∨ Travelling (S.at' p t)

instance (P S : Diaries Int) (p t : Nat) : Decidable (OnTheWay P S p t) := by unfold OnTheWay; infer_instance

/-- The activities of the survey all have a rating. -/
def Rated (D : Diaries Int) (dic : Int → Option Int) : Prop := ∀ p t, p < D.nP → t < D.nT → ∃ r, dic (D.at' p t) = some r

/-- Some activity of the survey has a smaller rating than that of `p` at `t`. -/
def NotLowest (D : Diaries Int) (dic : Int → Option Int) (p t : Nat) : Prop :=
  ∃ q u r r', q < D.nP ∧ u < D.nT ∧ dic (D.at' q u) = some r' ∧ dic (D.at' p t) = some r ∧ r' < r

/-- The intended estimate: an unknown start is decided by the ratings of the first activities; after a travel from `s` to `t - 1` that is not the last one, the person is at home
iff the ratings at `t`, lowered by one if the person was at home before the travel and raised by one otherwise, are not negative. -/
def EstimatesOccupancy (P S : Diaries Int) (initial : Nat → Int) (dic : Int → Option Int) (occ : Diaries Bool) : Prop :=
  (∀ p r r', p < P.nP → initial p = -1 → dic (P.at' p 0) = some r → dic (S.at' p 0) = some r' → ¬ OnTheWay P S p 0 → occ.at' p 0 = decide (0 ≤ r + r')) ∧
  (∀ p s t r r', p < P.nP → 0 < s → s < t → t < P.nT → ¬ OnTheWay P S p (s - 1) → (∀ j, s ≤ j → j < t → OnTheWay P S p j) → ¬ OnTheWay P S p t → (∃ j, t < j ∧ j < P.nT ∧ OnTheWay P S p j) →
    dic (P.at' p t) = some r → dic (S.at' p t) = some r' → occ.at' p t = decide (0 ≤ r + r' + (if occ.at' p (s - 1) then -1 else 1)))

/-- The members of a household that recorded a day. -/
def members (n : Nat) (household day : List Nat) (h d : Nat) : List Nat := (List.range n).filter fun p => decide (household[p]? = some h ∧ day[p]? = some d)

end Demod
