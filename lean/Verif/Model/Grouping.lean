import Verif.Model.Survey
import Verif.Model.Metrics
import Verif.Model.Similarity

/-! # Transitions of the households and statistics of the bulbs (`demod/utils/parse_helpers.py`) -/

namespace Demod

/-- The lexicographic order of four numbers (`np.unique(…, axis=1)`, `parse_helpers.py:233-251`). -/
def quadLt (a b : Nat × Nat × Nat × Nat) : Bool := decide (a.1 < b.1) || (decide (a.1 = b.1) && tripleLt a.2 b.2)

/-- The lexicographic order of the columns `[time, new_state, old_state, household, day]` (`np.unique(…, axis=1)`, `parse_helpers.py:233-251`). -/
def quintLt (a b : Nat × Nat × Nat × Nat × Nat) : Bool := decide (a.1 < b.1) || (decide (a.1 = b.1) && quadLt a.2 b.2)

/-- The dictionary returned by `group_hh_transitions`, `parse_helpers.py:253-262`: six parallel arrays. -/
structure HhTransitions where
  times : List Nat
  households : List Nat
  newStates : List Nat
  oldStates : List Nat
  counts : List Nat
  dayNrs : List Nat
  deriving Repr, DecidableEq

/-- The part of `group_hh_transitions` after the transitions of the persons, `parse_helpers.py:233-262`. An index of a person outside of the arrays is an `IndexError`. -/
def groupTransitions (tr : Transitions Nat) (household day : List Nat) : Except PyErr HhTransitions := do
  let hhs ← tr.persons.mapM fun p => pyGet household p
  let days ← tr.persons.mapM fun p => pyGet day p
  let cols := tr.times.zip (tr.newStates.zip (tr.oldStates.zip (hhs.zip days)))
  let u := npUnique quintLt cols
  .ok { times := u.map fun q => q.1
        households := u.map fun q => q.2.2.2.1
        newStates := u.map fun q => q.2.1
        oldStates := u.map fun q => q.2.2.1
        counts := u.map fun q => cols.count q
        dayNrs := u.map fun q => q.2.2.2.2 }

/-- `group_hh_transitions`, `parse_helpers.py:181-262`. -/
def groupHhTransitions (primary : Diaries Nat) (household day : List Nat) (secondary : Option (Diaries Nat)) : Except PyErr HhTransitions := do
  let tr ← match secondary with
    | some S => statesToTransitionsSecondary primary S
    | none => statesToTransitions primary false false
  groupTransitions tr household day

/-- The powers of the bulbs of a house, the entries with `(config_array > 0) & (~np.isnan(config_array))`, `parse_helpers.py:415-415`; NaN is `none`. -/
def bulbsOfHouse (row : List (Option Rat)) : List Rat := row.filterMap fun x => x.bind fun w => if w > 0 then some w else none

/-- The result of `bulbs_stats_from_config`, with the variance (the square of the standard deviation) in place of the latter. (`parse_helpers.py:423-426`) -/
structure BulbStats where
  mean : Option Rat
  variance : Option Rat
  consumptions : List Rat
  penetration : List Rat
  deriving DecidableEq

/-- `bulbs_stats_from_config`, `parse_helpers.py:401-426`. -/
def bulbStats (config : List (List (Option Rat))) : BulbStats :=
  let counts := config.map fun row => ((bulbsOfHouse row).length : Rat)
  let bulbs := config.flatMap bulbsOfHouse
  let u := npUnique ratLt bulbs
  let mean := npMean counts
  { mean := mean
    variance := mean.bind fun m => npMean (counts.map fun c => (c - m) * (c - m))
    consumptions := u
    penetration := u.map fun w => (bulbs.count w : Rat) / ((u.map fun w => bulbs.count w).sum : Nat) }

end Demod
