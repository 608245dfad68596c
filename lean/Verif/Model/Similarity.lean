import Verif.Model.Metrics
import Verif.Model.Utils

/-!
# Comparisons of profiles and counts (`demod/metrics/states.py`, `demod/metrics/loads.py`)

`cdist` and `pdist` of scipy are given here for an arbitrary distance `d` between two profiles, which is
the argument of the user (a name of scipy or a function), and keep the type of the values. The
function `distance` of the library `python-Levenshtein` is the recurrence of Wagner and Fischer.
-/

namespace Demod

/-- The last row of the table of `Levenshtein.distance` for a first word `x :: a`, where `r` is the row of `a`
and `n` the length of `a`. (`states.py:426-439`) -/
def editRow {α : Type} [DecidableEq α] (r : List α → Nat) (x : α) (n : Nat) : List α → Nat
  | [] => n + 1
  | y :: b => min (min (r (y :: b) + 1) (editRow r x n b + 1)) (r b + if x = y then 0 else 1)

/-- `Levenshtein.distance`, called at `states.py:436-439`. -/
def editDistance {α : Type} [DecidableEq α] : List α → List α → Nat
  | [] => fun b => b.length
  | x :: a => editRow (editDistance a) x a.length

/-- `levenshtein_edit_distance`, `states.py:375-439`, for profiles of integers: the values are written one after
the other, without separator. The missing library (`ImportError`) is not modelled. -/
def levenshteinEditDistance (p q : List Int) : Nat :=
  editDistance (p.flatMap intStr) (q.flatMap intStr)

/-- `count`, `states.py:103-116`; `lt` is the order of numpy on the values. -/
def countValues {α : Type} [DecidableEq α] (lt : α → α → Bool) (xs : List α) : List (α × Nat) :=
  (npUnique lt xs).map fun u => (u, xs.count u)

/-- `profiles_similarity`, `loads.py:40-67`: `cdist` refuses profiles of different numbers of times. -/
def profilesSimilarity {α : Type} (d : List α → List α → Rat) (sim target : Diaries α) :
    Except PyErr (List (List Rat)) :=
  if sim.nT = target.nT then
    .ok ((List.range sim.nP).map fun i => (List.range target.nP).map fun j => d (sim.row i) (target.row j))
  else .error .valueError

/-- `pdist`, called at `loads.py:97`: the distances of the pairs `i < j`, row by row. -/
def pdist {α : Type} (d : List α → List α → Rat) (D : Diaries α) : List Rat :=
  (List.range D.nP).flatMap fun i => (List.range (D.nP - (i + 1))).map fun k => d (D.row i) (D.row (i + 1 + k))

/-- `np.mean` of a list; the mean of nothing is NaN (`none`). (`loads.py:98-98`) -/
def npMean (xs : List Rat) : Option Rat :=
  if xs.length = 0 then none else some (xs.sum / (xs.length : Rat))

/-- `profiles_variety`, `loads.py:70-98`: a number (`none` for NaN) if `average`, else a list. -/
def profilesVariety {α : Type} (d : List α → List α → Rat) (D : Diaries α) (average : Bool) :
    Option Rat ⊕ List Rat :=
  let distances := pdist d D
  if average then .inl (npMean distances) else .inr distances

end Demod
