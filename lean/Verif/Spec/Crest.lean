import Verif.Model.Crest
import Verif.Spec.Markov
import Verif.Spec.Utils

/-! # The content of the CREST workbook -/

namespace Demod

/-- The probabilities of the transitions from state `i` in slot `t` of the day, as they are in the sheet: `N` states, `N` rows for each slot. -/
def sheetRow (sheet : List (List Rat)) (N t i : Nat) : List Rat := (sheet.getD (t * N + i) []).take N

/-- A sheet of transition probabilities: 144 times `N` rows of at least `N` values, not negative, which sum to about 1 or are all missing. -/
def ValidSheet (sheet : List (List Rat)) (N : Nat) : Prop :=
  sheet.length = 144 * N ∧ (∀ row ∈ sheet, N ≤ row.length ∧ ∀ x ∈ row.take N, 0 ≤ x) ∧
    ∀ t < 144, ∀ i < N, (sheetRow sheet N t i).sum = 0 ∨ (9 / 10 < (sheetRow sheet N t i).sum ∧ (sheetRow sheet N t i).sum < 11 / 10)

/-- The subgroup of the households of `n` residents on weekdays or week-ends. -/
def IsCrestGroup (g : Subgroup) (n : Nat) (weekend : Bool) : Prop :=
  g.at kNResidents = some (.int n) ∧ 1 ≤ n ∧ n ≤ 6 ∧ g.at kWeekday = some (.list (if weekend then [6, 7] else [1, 2, 3, 4, 5]))

/-- No type is named like a further copy of another: `T_2`, `T_3`, … -/
def NoCopyNames (types : List Str) : Prop := ∀ a ∈ types, ∀ b ∈ types, ∀ k, 2 ≤ k → a ≠ copyKey b k

/-- Which copy of its type the `i`-th appliance is, counting from 1. -/
def nthCopy (types : List Str) (i : Nat) : Nat := (types.take (i + 1)).count (types.getD i [])

/-- The names of the activities in the workbook and in demod. -/
def crestNames : List (Str × Str) :=
  [("ACT_TV".toList, "watching_tv".toList), ("ACT_COOKING".toList, "cooking".toList), ("ACT_LAUNDRY".toList, "laundry".toList),
   ("ACT_WASHDRESS".toList, "self_washing".toList), ("ACT_IRON".toList, "ironing".toList), ("ACT_HOUSECLEAN".toList, "cleaning".toList)]

/-- The table of the activities: for 0 to 5 active occupants the six activities, which are known and distinct; 144 values each. -/
def ValidStats (rows : List (List Rat)) (activities : List Str) : Prop :=
  rows.length = 36 ∧ (∀ r ∈ rows, r.length = 144) ∧ activities.length = 6 ∧ activities.Nodup ∧ ∀ a ∈ activities, a ∈ crestNames.map (·.1)

end Demod
