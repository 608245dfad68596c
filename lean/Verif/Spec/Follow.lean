import Verif.Model.Follow

/-! # Specifications for appliances that follow activities and other appliances -/

namespace Demod

/-- The use of appliance `a` of household `h` ends with the next step. -/
def FollowState.Ends (s : FollowState) (h a : Nat) : Prop := 0 < s.left h a ∧ s.left h a ≤ 1

/-- Appliance `f` is the only one that follows a type of appliances, and it follows `T`. -/
def OnlyFollower (apps : List AppInfo) (f : Nat) (T : Str) : Prop :=
  ∀ (a : Nat) x, apps[a]? = some x → (a = f → x.previousType = some T) ∧ (a ≠ f → x.previousType = none)

/-- In household `h` somebody performed the activity in the last step and nobody does now. -/
def StopsIn (previous now : List (Str × (Nat → Nat))) (act : Str) (h : Nat) : Prop :=
  ∃ p n, previous.lookup act = some p ∧ now.lookup act = some n ∧ 0 < p h ∧ n h = 0

end Demod
