import Verif.Model.Parse

/-!
# The american diaries (`demod/datasets/ATUS/parse_data.py`)

The functions that turn lists of transitions into states and matrices. Times, persons and states are natural numbers, and
`initial_states` is a numpy array. The script around the functions (download, labels, plots) is not modelled.
-/

namespace Demod.Atus

/-- `max(xs)`; `ValueError` when empty. (`parse_data.py:453-466`) -/
def maxOf : List Nat → Except PyErr Nat
  | [] => .error .valueError
  | x :: xs => .ok (xs.foldl max x)

/-- `n_times` and `n_persons`: deduced from the transitions, or checked. (`parse_data.py:452-460`, `504-512`, `587-594`) -/
def size (given : Option Nat) (xs : List Nat) : Except PyErr Nat := do
  let m ← maxOf xs
  match given with
  | none => .ok (m + 1)
  | some n => if n > m then .ok n else .error .assertionError

/-- `assert n_states > max(initial_states)`; `max(None)` is a `TypeError`. (`parse_data.py:465`, `517`) -/
def checkInitial (n : Nat) (initial : Option (List Nat)) : Except PyErr Unit :=
  match initial with
  | none => .error .typeError
  | some i => do
    let m ← maxOf i
    if n > m then .ok () else .error .assertionError

/-- `n_states` of `transitions_to_states` and `build_transition_matrices`. (`parse_data.py:461-465`, `513-517`) -/
def states (given : Option Nat) (new : List Nat) (initial : Option (List Nat)) : Except PyErr Nat := do
  let n ← size given new
  match given with
  | none => .ok n
  | some _ => do
    checkInitial n initial
    .ok n

/-- `assert cond` (`parse_data.py:468-478`) -/
def assert (c : Bool) : Except PyErr Unit := if c then .ok () else .error .assertionError

/-- `transitions_times == t` (`parse_data.py:484`) -/
def atTime (times : List Nat) (t : Nat) : List Bool := times.map (· == t)

/-- The check that the transitions at time 0 lead to the initial states. (`parse_data.py:477-478`, `531-532`) -/
def agrees (times persons new initial : List Nat) : Bool :=
  ((maskSel (atTime times 0) persons).zip (maskSel (atTime times 0) new)).all fun q => q.2 == initial.getD q.1 0

/-- `next_states` of the loops: `next_states[transitioning_persons] = transitions_new_states[mask]`; of several values for
one person the last one is kept. (`parse_data.py:484-491`, `540-547`) -/
def next (times persons new : List Nat) (t : Nat) (this : List Nat) : List Nat :=
  ((maskSel (atTime times t) persons).zip (maskSel (atTime times t) new)).foldl (fun s q => s.set q.1 q.2) this

/-- The loop over the times from `t` on: the states after each time. (`parse_data.py:481-495`, `538-561`) -/
def loop (times persons new : List Nat) : Nat → Nat → List Nat → List (List Nat)
  | 0, _, _ => []
  | n + 1, t, this => next times persons new t this :: loop times persons new n (t + 1) (next times persons new t this)

/-- `np.asarray(states).T` (`parse_data.py:495`) -/
def transposed (nP nT : Nat) (s : List (List Nat)) : Diaries Nat := ⟨nP, nT, fun p t => (s.getD t []).getD p 0⟩

/-- `transitions_to_states`, `parse_data.py:441-495`. -/
def transitionsToStates (times persons new : List Nat) (initial : Option (List Nat)) (nTimes nPersons nStates : Option Nat) :
    Except PyErr (Diaries Nat) := do
  let nT ← size nTimes times
  let nP ← size nPersons persons
  let _ ← states nStates new initial
  assert (times.length == persons.length)
  assert (times.length == new.length)
  let first := initial.getD (maskSel (atTime times 0) new)
  assert (first.length == nP)
  assert (agrees times persons new first)
  .ok (transposed nP nT (loop times persons new nT 0 first))

/-- `np.all(a <= np.roll(a, -1))` with the last entry compared with itself: every entry with the following one.
(`parse_data.py:611-614`) -/
def sortedNext : List Nat → Bool
  | a :: b :: l => decide (a ≤ b) && sortedNext (b :: l)
  | _ => true

/-- The times of consecutive transitions of one person do not decrease. (`parse_data.py:616-623`) -/
def subsorted : List (Nat × Nat) → Bool
  | a :: b :: l => (decide (a.1 ≠ b.1) || decide (a.2 ≤ b.2)) && subsorted (b :: l)
  | _ => true

/-- The loop of `get_mask_remove_fake_transitions`; `previous` is `none` for the initial `-1`. (`parse_data.py:627-645`) -/
def realLoop : Option (Nat × Nat) → List (Nat × Nat) → List Bool
  | _, [] => []
  | previous, q :: l => (if previous = some q then false else true) :: realLoop (some q) l

/-- `get_mask_remove_fake_transitions`, `parse_data.py:579-646`. -/
def maskRemoveFake (times persons new : List Nat) (nTimes nPersons nStates : Option Nat) : Except PyErr (List Bool) := do
  let _ ← size nTimes times
  let _ ← size nPersons persons
  let _ ← size nStates new
  assert (times.length == persons.length)
  assert (times.length == new.length)
  assert (sortedNext persons)
  assert (subsorted (persons.zip times))
  .ok (realLoop none (persons.zip new))

/-- The counts of `np.unique(np.asarray((this_states, next_states)), axis=1, return_counts=True)`. (`parse_data.py:549-554`) -/
def pairCount (this nxt : List Nat) (i j : Nat) : Nat := (this.zip nxt).count (i, j)

/-- The matrices of counts of the loop. (`parse_data.py:538-561`) -/
def countLoop (times persons new : List Nat) : Nat → Nat → List Nat → List (Nat → Nat → Nat)
  | 0, _, _ => []
  | n + 1, t, this => pairCount this (next times persons new t this) :: countLoop times persons new n (t + 1) (next times persons new t this)

/-- `transition_matrices / np.sum(transition_matrices, axis=2)[:,:,None]`: NaN, here `none`, in the rows without counts.
(`parse_data.py:571`) -/
def probabilities (n : Nat) (c : Nat → Nat → Nat) (i j : Nat) : Option Rat :=
  let total := ((List.range n).map (c i)).sum
  if total = 0 then none else some ((c i j : Rat) / (total : Rat))

/-- `build_transition_matrices`, `parse_data.py:498-575`, with `return_states=True`: the matrices, and the states with one row per
time. A state outside of the matrices raises `IndexError`, which happens when `n_states` is not given and an initial state
exceeds all the new states. The index list of line 551 is taken as a tuple of index arrays, as numpy before 1.23
does. -/
def buildTransitionMatrices (initial times persons new : List Nat) (nTimes nPersons nStates : Option Nat) (strategy : FirstTpm) :
    Except PyErr (Nat × Nat × (Nat → Nat → Nat → Option Rat) × List (List Nat)) := do
  let nT ← size nTimes times
  let nP ← size nPersons persons
  let n ← states nStates new (some initial)
  assert (initial.length == nP)
  assert (times.length == persons.length)
  assert (times.length == new.length)
  assert (agrees times persons new initial)
  if initial.any fun s => decide (n ≤ s) then .error .indexError
  else do
    let counts := countLoop times persons new nT 0 initial
    let m ← firstTpmChange nT strategy fun t => counts.getD t fun _ _ => 0
    .ok (nT, n, fun t => probabilities n (m t), loop times persons new nT 0 initial)

end Demod.Atus
