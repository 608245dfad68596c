import Verif.Model.SurveyStats
import Verif.Spec.Survey

/-! # The activities of the diaries -/

namespace Demod

/-- The name under which an activity of the dictionary is shown. -/
def shownActivity (l : Str) : Str := if l = "-".toList then "other".toList else l

/-- The activity of person `p` at time `t`; `name` gives the activity of a code. -/
def activityAt (addAway : Bool) (P : Diaries Int) (occ : Diaries Bool) (name : Int → Str) (p t : Nat) : Str :=
  if addAway = true ∧ (occ.at' p t = false ∨ P.at' p t = 0) then "away".toList else shownActivity (name (P.at' p t))

/-- The dictionary has each code at most once, and `name` is what it has for the codes of the survey. -/
def Names (P : Diaries Int) (dict : List (Int × Str)) (name : Int → Str) : Prop :=
  (dict.map (·.1)).Nodup ∧ ∀ p t, p < P.nP → t < P.nT → (P.at' p t, name (P.at' p t)) ∈ dict

/-- The number of members at home. -/
def atHome (occ : Diaries Bool) (M : List Nat) (t : Nat) : Nat := (M.filter fun p => occ.at' p t).length

/-- The number of members who are awake, at home or elsewhere. -/
def awake (act : Nat → Nat → Nat) (M : List Nat) (t : Nat) : Nat := (M.filter fun p => decide (act p t = 1)).length

/-- Some member does the activity, as primary or secondary activity, at home or elsewhere. -/
def someoneDoes (P S : Diaries Int) (dict : Int → Option Str) (desired : Str) (M : List Nat) (t : Nat) : Bool :=
  M.any fun p => decide (dict (P.at' p t) = some desired) || decide (dict (S.at' p t) = some desired)

/-- How many times the members start an activity that is `counted`, on the circular day. -/
def startsOf (D : Diaries Str) (counted : Str → Bool) (M : List Nat) : Nat :=
  ((List.range D.nT).flatMap fun t => M.map fun p => (t, p)).countP fun q => decide (D.before false q.2 q.1 ≠ D.at' q.2 q.1) && counted (D.at' q.2 q.1)

end Demod
