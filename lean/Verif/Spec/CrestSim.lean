import Verif.Model.CrestSim
import Verif.Spec.Crest
import Verif.Spec.Equip

/-! # Specifications for the 4-states simulator -/

namespace Demod

/-- The distribution of the next state in slot `t` of the day, from state `i` of `N`, according to a sheet of the workbook: the values of the row divided by their sum; if they are missing, the state is kept. -/
def sheetDist (sheet : List (List Rat)) (N t i : Nat) : List Rat :=
  if (sheetRow sheet N t i).sum = 0 then (List.range N).map fun j => if i = j then 1 else 0
  else (sheetRow sheet N t i).map fun x => x / (sheetRow sheet N t i).sum

/-- The distribution of the starting state of households of `n` residents: the values of the column in the rows of at most `n` occupants and at most `n` active persons. -/
def startDist (col : List Rat) (n : Nat) : List Rat := (List.range (n + 1)).flatMap fun m => (List.range (n + 1)).map fun k => col.getD (7 * m + k) 0

/-- What the workbook must have for the households of `n` residents, on weekdays and on week-ends: a sheet of transitions, and a column of starting probabilities, of which those used sum to 1, beside the labels `10 m + k`. -/
def BookHas (B : CrestBook) (n : Nat) : Prop :=
  ∀ weekend, ValidSheet (B.tpm n weekend) ((n + 1) ^ 2) ∧ (B.startLabels weekend).length = 49 ∧ (∀ m ≤ 6, ∀ k ≤ 6, (B.startLabels weekend)[7 * m + k]? = some (10 * m + k)) ∧
    ∃ col, lookupA (B.starts weekend) n = some col ∧ col.length = 49 ∧ (∀ x ∈ col, 0 ≤ x) ∧ (startDist col n).sum = 1

/-- The column of starting probabilities for `n` residents. -/
def startCol (B : CrestBook) (weekend : Bool) (n : Nat) : List Rat := (lookupA (B.starts weekend) n).getD []

/-- The time is on Saturday or Sunday (microseconds since Monday 1 January of year 1). -/
def OnWeekend (t : Int) : Prop := 5 ≤ t / 86400000000 % 7

instance (t : Int) : Decidable (OnWeekend t) := inferInstanceAs (Decidable (5 ≤ t / 86400000000 % 7))

/-- From the day of midnight `T` up to the day of period `j - 1`, counted in periods of ten minutes from `T`, the type of day has been another one than on the day of `T`. -/
def TypeChanged (T : Int) (j : Nat) : Prop := ∃ d < (j - 1) / 144 + 1, ¬ (OnWeekend (T + (d : Nat) * 86400000000) ↔ OnWeekend T)

instance (T : Int) (j : Nat) : Decidable (TypeChanged T j) := inferInstanceAs (Decidable (∃ d < (j - 1) / 144 + 1, ¬ (OnWeekend (T + (d : Nat) * 86400000000) ↔ OnWeekend T)))

/-- The slot of the sheet used for the transition of period `j` after midnight `T`: one too far until the type of day changes for the first time. -/
def crestSlot (T : Int) (j : Nat) : Nat := if TypeChanged T j then j % 144 else (j + 1) % 144

/-- Whether the sheet used for the transition of period `j` after midnight `T` is that of week-ends: it is on the day of the period before. -/
def crestWeekend (T : Int) (j : Nat) : Bool := decide (OnWeekend (T + ((j - 1) / 144 : Nat) * 86400000000))

/-- The slot used in period `j` after the refresh time `T` before `start`, if the data refresh at another time than midnight: a start on another type of day than `T` counts as a change of the type of day after the first period. -/
def crestSlotFrom (start T : Int) (j : Nat) : Nat := if TypeChanged T j ∨ (0 < j ∧ ¬ (OnWeekend start ↔ OnWeekend T)) then j % 144 else (j + 1) % 144

/-- Whether the data used in period `j` after the refresh time `T` before `start` are those of week-ends: in the first period they are those of the day of the start. -/
def crestWeekendFrom (start T : Int) (j : Nat) : Bool := if j = 0 then decide (OnWeekend start) else crestWeekend T j

/-- In households of `n` residents, state `i` stands for `m` occupants and `k` active persons. -/
def IsState (n i m k : Nat) : Prop := m ≤ n ∧ k ≤ n ∧ i = m * (n + 1) + k

/-- The course of the states of a household of `n` residents from midnight `T` on, `traj j` after `j` periods of ten minutes, given a draw for the starting state and one for each transition. `slot j` is the slot of the sheet used for the
transition of period `j`, `weekend j` says whether it is the sheet of week-ends. -/
def CrestCourse (B : CrestBook) (n : Nat) (T : Int) (u0 : Rat) (us : List Rat) (slot : Nat → Nat) (weekend : Nat → Bool) (traj : Nat → Nat) : Prop :=
  Sampled (startDist (startCol B (decide (OnWeekend T)) n) n) u0 (traj 0) ∧
    ∀ j u, us[j]? = some u → Sampled (sheetDist (B.tpm n (weekend j)) ((n + 1) ^ 2) (slot j) (traj j)) u (traj (j + 1))

end Demod
