import Verif.Model.Sampling

/-!
# Parsing of diaries (`demod/utils/parse_helpers.py`)

A two dimensional array of states is its shape and its entries.  Integer (or string) states are
elements of a type with decidable equality.  `np.unique(..., return_counts=True)` followed by the
assignment of the counts at the unique indices is modelled as counting.
-/

namespace Demod

/-- An array of states of shape `(nP, nT)`: diaries × time steps. (`parse_helpers.py:12-112`) -/
structure Diaries (σ : Type) where
  nP : Nat
  nT : Nat
  at' : Nat → Nat → σ

namespace Diaries
variable {σ : Type}

/-- Column `t` of the array: `states.T[t]`. (`parse_helpers.py:12-112`) -/
def col (D : Diaries σ) (t : Nat) : List σ := (List.range D.nP).map fun p => D.at' p t

/-- The columns in order: `for s in states.T`. (`parse_helpers.py:12-112`) -/
def cols (D : Diaries σ) : List (List σ) := (List.range D.nT).map D.col

end Diaries

/-- `transitions_dict` of `parse_helpers.py:85-89` (and `169-173`): four parallel arrays. -/
structure Transitions (σ : Type) where
  times : List Nat
  persons : List Nat
  newStates : List σ
  oldStates : List σ
  deriving Repr, DecidableEq

/-- `np.where(mask)[0]` (`parse_helpers.py:12-112`) -/
def whereIdx (mask : List Bool) : List Nat := (List.range mask.length).filter fun i => mask.getD i false

/-- `xs[mask]` for a mask of the same length. (`parse_helpers.py:12-112`) -/
def maskSel {α : Type} (mask : List Bool) (xs : List α) : List α :=
  (mask.zip xs).filterMap fun p => if p.1 then some p.2 else none

section
variable {σ : Type} [DecidableEq σ]

/-- The loop of `parse_helpers.py:70-83`. -/
def transitionsLoop (includeSame : Bool) : Nat → List σ → List (List σ) → Transitions σ
  | _, _, [] => ⟨[], [], [], []⟩
  | i, old, s :: rest =>
    let mask := (old.zip s).map fun p => if includeSame then true else decide (p.1 ≠ p.2)
    let r := transitionsLoop includeSame (i + 1) s rest
    { times := List.replicate (mask.countP (· == true)) i ++ r.times
      persons := whereIdx mask ++ r.persons
      newStates := maskSel mask s ++ r.newStates
      oldStates := maskSel mask old ++ r.oldStates }

/-- `states_to_transitions` without the durations, `parse_helpers.py:12-89`. States are not NaN,
so `include_same_state` selects everybody. A diary array without time steps raises
`IndexError` (line 61). -/
def statesToTransitions (D : Diaries σ) (includeSame ignoreEndStart : Bool) :
    Except PyErr (Transitions σ) :=
  if D.nT = 0 then .error .indexError
  else .ok (transitionsLoop includeSame 0 (D.col (if ignoreEndStart then 0 else D.nT - 1)) D.cols)

/-- `x[mask] = vals`: fills the selected positions in order. (`parse_helpers.py:12-112`) -/
def maskFill {α : Type} : List Bool → List α → List α → List α
  | true :: m, _ :: xs, v :: vs => v :: maskFill m xs vs
  | false :: m, x :: xs, vs => x :: maskFill m xs vs
  | _, xs, _ => xs

/-- The durations of one person, `parse_helpers.py:93-108`: `ts` are the times of the
transitions of the person, `first` the old state of the first one, `last` the new state of
the last one. -/
def personDurations (nT : Nat) (ignoreEndStart : Bool) (ts : List Nat) (first last : σ) : List Nat :=
  match ts with
  | [] => []
  | t0 :: _ =>
    let tl := ts.getLastD 0
    let inner := (ts.zip ts.tail).map fun p => p.2 - p.1
    inner ++ [if first = last then t0 + (nT - tl) else if ignoreEndStart then 0 else nT - tl]

/-- `np.unique` of a list of naturals. (`parse_helpers.py:12-112`) -/
def uniqueSorted (xs : List Nat) : List Nat :=
  (List.range (xs.foldr (fun i a => max (i + 1) a) 0)).filter fun s => decide (s ∈ xs)

/-- The durations, `parse_helpers.py:91-110`. -/
def transitionDurations [Inhabited σ] (nT : Nat) (ignoreEndStart : Bool) (tr : Transitions σ) : List Nat :=
  (uniqueSorted tr.persons).foldl (fun duration person =>
      let mask := tr.persons.map (· == person)
      let ts := maskSel mask tr.times
      let last := (maskSel mask tr.newStates).getLastD default
      let first := (maskSel mask tr.oldStates).headD default
      maskFill mask duration (personDurations nT ignoreEndStart ts first last))
    (tr.times.map fun _ => 0)

/-- The loop of `states_to_transitions_secondary`, `parse_helpers.py:149-168`. -/
def secondaryLoop : Nat → List σ → List σ → List (List σ × List σ) → Transitions σ
  | _, _, _, [] => ⟨[], [], [], []⟩
  | i, oldP, oldS, (p, s) :: rest =>
    let maskP := (oldP.zip (p.zip s)).map fun x => decide (x.1 ≠ x.2.1) && decide (x.1 ≠ x.2.2)
    let maskS := (oldS.zip (p.zip s)).map fun x => decide (x.1 ≠ x.2.1) && decide (x.1 ≠ x.2.2)
    let r := secondaryLoop (i + 1) p s rest
    { times := List.replicate (maskP.countP (· == true) + maskS.countP (· == true)) i ++ r.times
      persons := whereIdx maskS ++ (whereIdx maskP ++ r.persons)
      newStates := maskSel maskP p ++ (maskSel maskS s ++ r.newStates)
      oldStates := maskSel maskP oldP ++ (maskSel maskS oldS ++ r.oldStates) }

/-- `states_to_transitions_secondary`, `parse_helpers.py:115-178`; both arrays have the same
shape. -/
def statesToTransitionsSecondary (P S : Diaries σ) : Except PyErr (Transitions σ) :=
  if P.nT = 0 then .error .indexError
  else .ok (secondaryLoop 0 (P.col 0) (S.col 0) (P.cols.zip S.cols))

end

/-! ## Relabelling -/

/-- Insertion in a sorted list without repetition. (`parse_helpers.py:265-295`) -/
def insertUniq {α : Type} (lt : α → α → Bool) (a : α) : List α → List α
  | [] => [a]
  | b :: l => if lt a b then a :: b :: l else if lt b a then b :: insertUniq lt a l else b :: l

/-- `np.unique(xs)` for a totally ordered type of entries. (`parse_helpers.py:265-295`) -/
def npUnique {α : Type} (lt : α → α → Bool) (xs : List α) : List α := xs.foldr (insertUniq lt) []

/-- `d[x]` for a dictionary: `KeyError` on a missing key. (`parse_helpers.py:265-308`) -/
def dictGet {α β : Type} (d : α → Option β) (x : α) : Except PyErr β :=
  match d x with
  | some y => .ok y
  | none => .error .keyError

/-- `convert_states`, `parse_helpers.py:265-295`, on the flattened array. `merge` is the
dictionary (`none` when a key is missing: `KeyError`). Without `merge_dic` it is `some`. On an empty
array `np.vectorize` raises `ValueError`. -/
def convertStates {α β : Type} [DecidableEq α] [DecidableEq β] (ltA : α → α → Bool) (ltB : β → β → Bool)
    (merge : α → Option β) (raw : List α) : Except PyErr (List Nat × List β) := do
  if raw = [] then .error .valueError
  let u := npUnique ltA raw
  let states := raw.map fun x => u.idxOf x
  let statesLabels ← u.mapM (dictGet merge)
  let uLab := npUnique ltB statesLabels
  let invLab := statesLabels.map fun y => uLab.idxOf y
  .ok (states.map fun s => invLab.getD s 0, uLab)

/-- `translate_1d`, `parse_helpers.py:298-308`. -/
def translate1d {α β : Type} (dict : α → Option β) (xs : List α) : Except PyErr (List β) :=
  xs.mapM (dictGet dict)

/-! ## Transition matrices from diaries -/

/-- Algorithms of `first_tpm_change`, `parse_helpers.py:673-695`. -/
inductive FirstTpm where
  | last
  | nothing
  | other
  deriving DecidableEq, Repr

/-- `first_tpm_change`, `parse_helpers.py:673-695`, on an array with `nT` matrices. -/
def firstTpmChange {α : Type} (nT : Nat) (algo : FirstTpm) (m : Nat → α) : Except PyErr (Nat → α) :=
  match algo with
  | .last => if nT = 0 then .error .indexError else .ok fun t => if t = 0 then m (nT - 1) else m t
  | .nothing => .ok m
  | .other => .error .typeError

/-- The state before time `t` on the circular day: `old_states` of `parse_helpers.py:634,657`. -/
def Diaries.prev {σ : Type} (D : Diaries σ) (p t : Nat) : σ := D.at' p (if t = 0 then D.nT - 1 else t - 1)

/-- The counts of transitions at time `t`, `parse_helpers.py:640-653`. -/
def tpmCounts (D : Diaries Nat) (t i j : Nat) : Nat :=
  (List.range D.nP).countP fun p => decide (D.prev p t = i ∧ D.at' p t = j)

/-- Sum of `f 0 … f (n-1)`. (`parse_helpers.py:585-608`) -/
def sumTo (n : Nat) (f : Nat → Rat) : Rat := ((List.range n).map f).sum

/-- Counts to probabilities with unvisited rows replaced by the identity,
`parse_helpers.py:662-668`: division by the row sum, NaN (zero sum) set to 0, then rows of sum 0
get a 1 on the diagonal. -/
def countsToTpm (n : Nat) (c : Nat → Nat → Rat) : Nat → Nat → Rat :=
  let p := fun i j => if sumTo n (c i) = 0 then 0 else c i j / sumTo n (c i)
  fun i j => if sumTo n (p i) = 0 then (if j = i then 1 else p i j) else p i j

/-- The largest state plus one, `parse_helpers.py:637` (`ValueError` on an empty array). -/
def maxState (D : Diaries Nat) : Nat :=
  (List.range D.nP).foldr (fun p a => (List.range D.nT).foldr (fun t b => max (D.at' p t) b) a) 0

/-- `states_to_tpms`, `parse_helpers.py:611-670`. `labels` is the number of labels if given; a state
outside of the matrix raises `IndexError`; an empty array raises. The index list of line 652
is taken as a tuple of index arrays, as numpy before 1.23 does. -/
def statesToTpms (D : Diaries Nat) (algo : FirstTpm) (labels : Option Nat) :
    Except PyErr (Nat × (Nat → Nat → Nat → Rat)) :=
  if D.nT = 0 then .error .indexError
  else if D.nP = 0 then .error .valueError
  else do
    let n := labels.getD (maxState D + 1)
    if ¬ maxState D < n then .error .indexError
    else
      let c ← firstTpmChange D.nT algo fun t i j => (tpmCounts D t i j : Rat)
      .ok (n, fun t => countsToTpm n (c t))

/-- `counts_to_pdf` with `ensure_valid_pdf=True` on one row of length `n`,
`parse_helpers.py:585-608`. -/
def countsToPdf (n : Nat) (c : Nat → Rat) : Nat → Rat :=
  let c' := if sumTo n c = 0 then (fun d => if d = 0 then 1 else c d) else c
  fun d => c' d / sumTo n c'

/-- `states_to_tpms_with_durations`, `parse_helpers.py:429-550`, returning the number of states, the
TPMs, the duration pdfs and those with previous states. `nStates` is `len(labels)`, or the
number of distinct states; a state outside of it raises `IndexError` when a transition or
constant diary has it (here: when any diary has it). -/
def statesToTpmsWithDurations (D : Diaries Nat) (algo : FirstTpm) (nStates : Nat) (ignoreEndStart : Bool) :
    Except PyErr ((Nat → Nat → Nat → Rat) × (Nat → Nat → Nat → Rat) × (Nat → Nat → Nat → Nat → Rat)) := do
  let tr ← statesToTransitions D false ignoreEndStart
  if ¬ maxState D < nStates then .error .indexError
  else
    let du := transitionDurations D.nT ignoreEndStart tr
    let recs := tr.times.zip (tr.oldStates.zip (tr.newStates.zip du))
    let tpm := fun t i j => (recs.countP (fun r => decide (r.1 = t ∧ r.2.1 = i ∧ r.2.2.1 = j)) : Rat)
    let dur := fun t j d => (recs.countP (fun r => decide (r.1 = t ∧ r.2.2.1 = j ∧ r.2.2.2 = d)) : Rat)
    let durP := fun t i j d => (recs.countP (fun r => decide (r.1 = t ∧ r.2.1 = i ∧ r.2.2.1 = j ∧ r.2.2.2 = d)) : Rat)
    let tpm ← firstTpmChange D.nT algo tpm
    let dur ← firstTpmChange D.nT algo dur
    let durP ← firstTpmChange D.nT algo durP
    let number := fun i => ((List.range D.nP).countP (fun p => (List.range D.nT).all fun t => D.at' p t == i) : Rat)
    let tpm := fun t i j => if t = 0 ∧ i = j then number i else tpm t i j
    let dur := fun t j d => if t = 0 ∧ d = D.nT then number j else dur t j d
    let durP := fun t i j d => if t = 0 ∧ i = j ∧ d = D.nT then number i else durP t i j d
    .ok (fun t => countsToTpm nStates (tpm t),
      fun t j => countsToPdf (D.nT + 1) (dur t j),
      fun t i j => countsToPdf (D.nT + 1) (durP t i j))

/-- One iteration of the loop of `parse_helpers.py:566-575`: `notFound` is `mask_not_found`, the
counts of column `t` are filled. -/
def initialStep (D : Diaries Nat) (st : (Nat → Bool) × (Nat → Nat → Rat)) (t : Nat) :
    (Nat → Bool) × (Nat → Nat → Rat) :=
  let change := fun p => decide (D.at' p 0 ≠ D.at' p t) && st.1 p
  (fun p => if change p then false else st.1 p,
   fun i d => if d = t then ((List.range D.nP).countP (fun p => change p && decide (D.at' p 0 = i)) : Rat)
     else st.2 i d)

/-- `get_initial_durations_pdfs`, `parse_helpers.py:553-582`: one row per state, of length
`n_times + 1`. `nStates` is the number of distinct states; a first state outside raises
`IndexError`. -/
def initialDurationsPdfs (D : Diaries Nat) (nStates : Nat) : Except PyErr (Nat → Nat → Rat) :=
  if D.nT = 0 then .error .indexError
  else if (List.range D.nP).any fun p => decide (¬ D.at' p 0 < nStates) then .error .indexError
  else
    let st := (List.range D.nT).foldl (initialStep D) (fun _ => true, fun _ _ => 0)
    let counts := fun i d =>
      if d = D.nT then ((List.range D.nP).countP (fun p => st.1 p && decide (D.at' p 0 = i)) : Rat)
      else st.2 i d
    .ok fun i => countsToPdf (D.nT + 1) (counts i)

end Demod
