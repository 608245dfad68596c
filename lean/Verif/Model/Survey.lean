import Verif.Model.Parse
import Verif.Model.Sparse
import Verif.Model.Utils

/-!
# The German time use survey (`demod/datasets/GermanTOU/parser.py`, `loader.py`)

The columns of the raw csv files are arguments. Arrays `(diaries × times)` are `Diaries`.
-/

namespace Demod

/-- The order of integers (`np.unique`, `parser.py:1549-1550`). -/
def intLt (a b : Int) : Bool := decide (a < b)

/-- The entries of an array, row by row (`parse_helpers.py:278-280`). -/
def Diaries.flat {σ : Type} (D : Diaries σ) : List σ := (List.range D.nP).flatMap fun p => (List.range D.nT).map (D.at' p)

/-- The array with the given entries, row by row: `inv.reshape(raw_states.shape)` (`parse_helpers.py:278-280`). -/
def unflat {τ : Type} (nP nT : Nat) (dflt : τ) (xs : List τ) : Diaries τ := ⟨nP, nT, fun p t => xs.getD (p * nT + t) dflt⟩

/-- `convert_states` on an array, `parse_helpers.py:265-295`: the array of the codes and the labels. -/
def convertArray {α β : Type} [DecidableEq α] [DecidableEq β] (ltA : α → α → Bool) (ltB : β → β → Bool) (merge : α → Option β) (D : Diaries α) : Except PyErr (Diaries Nat × List β) := do
  let r ← convertStates ltA ltB merge D.flat
  .ok (unflat D.nP D.nT 0 r.1, r.2)

/-! ## Occupancy -/

/-- `is_transportation`, `parser.py:1505-1515`. -/
def isTransport (s : Int) : Bool := decide (900 ≤ s) && (decide (s ≠ 997) && (decide (s ≠ 999) && decide (s ≠ 998)))

/-- `is_for_work_or_school`, `parser.py:1518-1528`. -/
def isWorkOrSchool (s : Int) : Bool := (decide (200 ≤ s) && decide (s < 400)) || (decide (900 ≤ s) && decide (s ≤ 940))

/-- The masks of one person in the loop: `current_occupancy`, `mask_was_travelling`, `mask_at_home_before_last_travel` (`parser.py:1566-1568`). -/
structure OccState where
  current : Bool
  was : Bool
  before : Bool
  deriving DecidableEq, Repr

/-- One iteration for one person, `parser.py:1570-1594`. `finalRating` is `home_ratings.T[-1]`, written to a boolean array. The last statement of the loop assigns `mask_travelling`, so `mask_was_travelling` keeps its value. -/
def occStep (travels : Bool) (rating finalRating : Int) (last final : Int) (i : Nat) (st : OccState) : OccState :=
  let leave := !st.was && travels
  let before := if leave then st.current else st.before
  let cur := if leave then false else st.current
  let finish := st.was && !travels
  let cur := if finish then decide (0 ≤ rating + (if before then -1 else 1)) else cur
  let after := decide (last = (i : Int) - 1)
  let cur := if after && decide (final = 1) then true else cur
  let cur := if after && decide (final = 2) then false else cur
  let cur := if after && decide (final = -1) then decide (finalRating ≠ 0) else cur
  ⟨cur, st.was, before⟩

/-- The loop over time, `parser.py:1570-1596`; the result lists `current_occupancy`. -/
def occLoop (travels : Nat → Bool) (rating : Nat → Int) (finalRating last final : Int) : List Nat → OccState → List Bool
  | [], _ => []
  | i :: is, st =>
    let st' := occStep (travels i) (rating i) finalRating last final i st
    st'.current :: occLoop travels rating finalRating last final is st'

/-- `last_travel_indexes` of one person, `parser.py:1563`. -/
def lastTravel (nT : Nat) (travels : Nat → Bool) : Int :=
  match ((List.range nT).filter travels).getLast? with
  | none => -42
  | some k => k

/-- `states_to_occupancy`, `parser.py:1531-1596`. All the arrays of diaries have the same shape. The ratings are those returned by `convert_states`, that is, codes. -/
def statesToOccupancy (P S : Diaries Int) (initial final : Nat → Int) (dicHome : Int → Option Int) : Except PyErr (Diaries Bool) := do
  let main ← convertArray intLt intLt dicHome P
  let sec ← convertArray intLt intLt dicHome S
  let rating := fun p t => (main.1.at' p t : Int) + (sec.1.at' p t : Int)
  let occ := fun p =>
    let travels := fun t => isTransport (P.at' p t) || isTransport (S.at' p t)
    let current := if initial p = -1 then decide (0 ≤ rating p 0) else decide (initial p = 1)
    occLoop travels (rating p) (rating p (P.nT - 1)) (lastTravel P.nT travels) (final p) (List.range P.nT) ⟨current, false, false⟩
  .ok ⟨P.nP, P.nT, fun p t => (occ p).getD t false⟩

/-- The final locations, `parser.py:52-55`: `-2` is replaced with an entry of `np.roll(initial_location, 1)`; `n` diaries. -/
def finalLocation (n : Nat) (initial final : Nat → Int) (p : Nat) : Int :=
  if final p = -2 then initial ((p + (n - 1)) % n) else final p

/-- `states_to_out_for_what_model`, `parser.py:1598-1615`; the states are 0 ('In-house'), 1 ('HWH') and 2 ('HOH'). -/
def outForWhat (occ : Bool) (prim sec : Int) : Nat :=
  let mask := isWorkOrSchool prim || isWorkOrSchool sec
  let out : Nat := if occ then 0 else 3
  let out := if !occ && mask then 1 else out
  if !occ && !mask then 2 else out

/-! ## Households -/

/-- The lexicographic order of the columns of `[days_indexes, household_indexes]` (`np.unique`, `parser.py:1684,1706`). -/
def pairLt (a b : Nat × Nat) : Bool := decide (a.1 < b.1) || (decide (a.1 = b.1) && decide (a.2 < b.2))

/-- `group_in_household_activity`, `parser.py:1689-1709`: a row for each `(day, household)`; `household` and `day` are the arguments `household_indexes` and `days_indexes`. -/
def groupHouseholds (X : Diaries Nat) (household day : List Nat) : Except PyErr (Diaries Nat) :=
  if ¬ (X.nP = household.length ∧ X.nP = day.length) then .error .assertionError
  else
    let keys := npUnique pairLt (day.zip household)
    .ok ⟨keys.length, X.nT, fun r t =>
      let key := keys.getD r (0, 0)
      (((List.range X.nP).filter fun p => decide (household.getD p 0 = key.2) && decide (day.getD p 0 = key.1)).map fun p => X.at' p t).sum⟩

/-- `group_in_household_4states`, `parser.py:1668-1686`. -/
def groupHouseholds4 (X : Diaries Nat) (household day : List Nat) : Except PyErr (Diaries Nat) :=
  if ¬ (X.nP = household.length ∧ X.nP = day.length) then .error .assertionError
  else if ¬ (X.flat.all fun s => s == 0 || s == 1 || s == 10 || s == 11) then .error .assertionError
  else groupHouseholds X household day

/-- `np.array(10 * occ + 1 * act, dtype=int)`, `parser.py:1834-1838`. -/
def fourStates (occ : Diaries Bool) (act : Nat → Nat → Nat) : Diaries Nat := ⟨occ.nP, occ.nT, fun p t => 10 * (if occ.at' p t then 1 else 0) + 1 * act p t⟩

/-- The states of the persons in `get_data_sparse9states`, `parser.py:1877-1902`: `active` is the mask of line 1888, `out` the states of `states_to_out_for_what_model`; `MAX_PEOPLE_HOUSEHOLD` is 7. -/
def personaState (active : Bool) (out : Nat) : Nat := if out ≠ 0 then 7 ^ (1 + out - 1) else (if active then 1 else 0)

/-- `get_active_occupancy` for the selected diaries, `parser.py:1719-1730`: the total per time over the households. -/
def activeOccupancyTotal (occ : Diaries Bool) (act : Nat → Nat → Nat) (household day : List Nat) : Except PyErr (Nat → Nat) := do
  let hh ← groupHouseholds ⟨occ.nP, occ.nT, fun p t => (if occ.at' p t then 1 else 0) * act p t⟩ household day
  .ok fun t => ((List.range hh.nP).map fun r => hh.at' r t).sum

/-! ## Sparse matrices of the households -/

/-- The lexicographic order of the rows `[time, state, new_state]` (`np.unique(transitions, axis=0)`, `parser.py:1641`). -/
def tripleLt (a b : Nat × Nat × Nat) : Bool := decide (a.1 < b.1) || (decide (a.1 = b.1) && pairLt a.2 b.2)

/-- `transitions`, `parser.py:1630-1639`: by time, then by diary; `np.roll(states, -1)` gives the next state. -/
def rolledTransitions (D : Diaries Nat) : List (Nat × Nat × Nat) :=
  (List.range D.nT).flatMap fun t => (List.range D.nP).map fun p => (t, D.at' p t, D.at' p ((t + 1) % D.nT))

/-- `states_to_sparse_tpm`, `parser.py:1619-1666`. `old_states_sum[inv][index_transitions]` is the number of transitions with the same time and old state. -/
def statesToSparseTpm (D : Diaries Nat) (strategy : FirstTpm) : Except PyErr SparseTPM := do
  let tr := rolledTransitions D
  let u := npUnique tripleLt tr
  let probs := u.map fun x => (tr.count x : Rat) / ((tr.map fun y => (y.1, y.2.1)).count (x.1, x.2.1) : Rat)
  let tpm ← SparseTPM.create (u.map fun x => x.1) (u.map fun x => x.2.1) (u.map fun x => x.2.2) probs none none none
  match strategy with
  | .last => do
    let m ← tpm.getItem (-1)
    tpm.setItem 0 m
  | .nothing => .ok tpm
  | .other => .error .typeError

end Demod
