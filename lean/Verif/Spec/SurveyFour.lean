import Verif.Model.SurveyFour
import Verif.Spec.CrestSim
import Verif.Spec.SurveyInd

/-! # How many members of the recorded households are at home, and how many are up -/

namespace Demod

/-- The main activity of diary `p` in slot `t` is neither sleeping (code 110) nor being ill in bed (code 132). -/
def SurveyRaw.Up (V : SurveyRaw) (p t : Nat) : Prop := V.primary.at' p t ≠ 110 ∧ V.primary.at' p t ≠ 132

/-- The number of members at home, and the number of members that are up, at home or elsewhere. -/
noncomputable def SurveyRaw.homeUp (V : SurveyRaw) (a : SubgroupArgs) (h d t : Nat) : Nat × Nat :=
  ({p | V.Member a h d p ∧ V.AtHome p t}.ncard, {p | V.Member a h d p ∧ V.Up p t}.ncard)

/-- The diaries of complete households of `n` residents, of weekdays or of week-ends. -/
def fourArgs (n : Nat) (weekend : Bool) : SubgroupArgs := { residents := .one n, weekday := if weekend then .list [6, 7] else .list [1, 2, 3, 4, 5] }

/-- What the survey must have for households of `n` residents: on weekdays and on week-ends, no household and day has more than `n` diaries, and somebody recorded each situation of at most `n` persons at home and at most `n` up. -/
structure FourGroup (V : SurveyRaw) (n : Nat) : Prop where
  accepted : ∀ w, AcceptedArgs (fourArgs n w)
  members : ∀ w h d, {p | V.Member (fourArgs n w) h d p}.ncard ≤ n
  every : ∀ w, ∀ m ≤ n, ∀ k ≤ n, ∃ h d t, V.Recorded (fourArgs n w) h d ∧ t < 144 ∧ V.homeUp (fourArgs n w) h d t = (m, k)

/-- The survey has households of `r` residents on this type of day, but none in one of the situations. -/
def LacksSituation (V : SurveyRaw) (r : Nat) (w : Bool) : Prop :=
  AcceptedArgs (fourArgs r w) ∧ (∀ h d, {p | V.Member (fourArgs r w) h d p}.ncard ≤ r) ∧ (∃ h d, V.Recorded (fourArgs r w) h d) ∧
    ∃ m ≤ r, ∃ k ≤ r, ∀ h d t, V.Recorded (fourArgs r w) h d → t < 144 → V.homeUp (fourArgs r w) h d t ≠ (m, k)

/-- The share of the recorded households of the subgroup that start the day in situation `x`. -/
noncomputable def SurveyRaw.fourStart (V : SurveyRaw) (a : SubgroupArgs) (x : Nat × Nat) : Rat :=
  ({q : Nat × Nat | V.Recorded a q.1 q.2 ∧ V.homeUp a q.1 q.2 0 = x}.ncard : Rat) / ({q : Nat × Nat | V.Recorded a q.1 q.2}.ncard : Rat)

/-- Among the recorded households in situation `x` in slot `before`, the share of those in situation `y` in slot `now`; if there are none, the situation is kept. -/
noncomputable def SurveyRaw.fourChange (V : SurveyRaw) (a : SubgroupArgs) (before now : Nat) (x y : Nat × Nat) : Rat :=
  if {q : Nat × Nat | V.Recorded a q.1 q.2 ∧ V.homeUp a q.1 q.2 before = x}.ncard = 0 then (if y = x then 1 else 0)
  else ({q : Nat × Nat | V.Recorded a q.1 q.2 ∧ V.homeUp a q.1 q.2 before = x ∧ V.homeUp a q.1 q.2 now = y}.ncard : Rat) / ({q : Nat × Nat | V.Recorded a q.1 q.2 ∧ V.homeUp a q.1 q.2 before = x}.ncard : Rat)

/-- The values for the situations of a household of `n` residents: by the number of persons at home, then by the number of those up. -/
def inOrder (n : Nat) (f : Nat × Nat → Rat) : List Rat := (List.range (n + 1)).flatMap fun m => (List.range (n + 1)).map fun k => f (m, k)

/-- The situation `x` of a household of `n` residents is drawn with `u`, if the shares are the lengths of consecutive intervals. -/
def DrawnSituation (n : Nat) (share : Nat × Nat → Rat) (u : Rat) (x : Nat × Nat) : Prop := x.1 ≤ n ∧ x.2 ≤ n ∧ Sampled (inOrder n share) u (x.1 * (n + 1) + x.2)

/-- The situations of a household of `n` residents from four o'clock before `start` on, `path j` after `j` periods of ten minutes, given a draw for the first one and one for each period. The first situation is drawn among those of the type of
day of `start`. In period `j` the changes from slot `(slots j).1` to slot `(slots j).2` are used, those of week-ends if `weekend j`. -/
def FourCourse (V : SurveyRaw) (n : Nat) (start : Int) (u0 : Rat) (us : List Rat) (slots : Nat → Nat × Nat) (weekend : Nat → Bool) (path : Nat → Nat × Nat) : Prop :=
  DrawnSituation n (V.fourStart (fourArgs n (decide (OnWeekend start)))) u0 (path 0) ∧
    ∀ j u, us[j]? = some u → DrawnSituation n (V.fourChange (fourArgs n (weekend j)) (slots j).1 (slots j).2 (path j)) u (path (j + 1))

/-- The changes used in period `j` after the refresh time `T` before `start`: until the type of day changes for the first time they are those of this period, from then on those of the period before. A start on another type of day than `T`
counts as a change after the first period. At the end of the day those of the last change of the day are used (again). -/
def fourSlots (start T : Int) (j : Nat) : Nat × Nat :=
  if TypeChanged T j ∨ (0 < j ∧ ¬ (OnWeekend start ↔ OnWeekend T)) then (if j % 144 = 0 then (142, 143) else (j % 144 - 1, j % 144)) else (if j % 144 = 143 then (142, 143) else (j % 144, j % 144 + 1))

end Demod
