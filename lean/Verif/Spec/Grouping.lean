import Verif.Model.Grouping
import Verif.Spec.Parse

/-! # What the transitions of the households and the statistics of the bulbs are -/

namespace Demod

/-- The rows `(time, new state, old state, household, day, count)` of the arrays. -/
def HhTransitions.rows (g : HhTransitions) : List (Nat × Nat × Nat × Nat × Nat × Nat) :=
  g.times.zip (g.newStates.zip (g.oldStates.zip (g.households.zip (g.dayNrs.zip g.counts))))

/-- Person `p` of household `h` on day `d` changes at time `t` from the state `o` to the state `n`. -/
def changesTo (D : Diaries Nat) (household day : List Nat) (t n o h d p : Nat) : Bool :=
  decide (household[p]? = some h ∧ day[p]? = some d ∧ D.before false p t = o ∧ D.at' p t = n ∧ o ≠ n)

/-- The number of bulbs of power `w` in a house. -/
def bulbsOfPower (row : List (Option Rat)) (w : Rat) : Nat := row.countP fun x => x == some w

/-- The number of bulbs of a house: the entries above 0. -/
def bulbsIn (row : List (Option Rat)) : Nat := row.countP fun x => match x with | some w => decide (0 < w) | none => false

/-- The power of all the bulbs of a house. -/
def powerOf (row : List (Option Rat)) : Rat := (row.map fun x => match x with | some w => max w 0 | none => 0).sum

end Demod
