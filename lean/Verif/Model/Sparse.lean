import Verif.Model.Sampling

/-!
# Sparse transition probability matrices (`demod/utils/sparse.py`)

Numpy arrays are lists, matrices are lists of rows, floats are rationals.
-/

namespace Demod

/-- `SparseTPM`, attributes of `sparse.py:34-42`. `shape` is `(n_times, n_states, n_states)`. -/
structure SparseTPM where
  times : List Nat
  indsFrom : List Nat
  indsTo : List Nat
  values : List Rat
  nStates : Nat
  nTimes : Nat
  dead : Option Nat
  iterCount : Nat
  deriving DecidableEq, Repr

/-- `np.max` / `max` of a list of naturals; `ValueError` when empty. (`sparse.py:44-101`) -/
def maxOf (xs : List Nat) : Except PyErr Nat :=
  match xs with
  | [] => .error .valueError
  | x :: xs => .ok (xs.foldl max x)

/-- `np.array(xs, dtype=np.uint16)`, wrapping as numpy does when it casts an integer array (`sparse.py:44-101`). -/
def toUint16 (xs : List Nat) : List Nat := xs.map (· % 65536)

namespace SparseTPM

/-- `SparseTPM.__init__`, `sparse.py:44-101`. The guard of lines 73-76 reads
`length == (len(inds_from) & length) == (len(inds_to) & length) == len(values)`, since in Python
`&` binds tighter than `==` and `==` chains. -/
def create (times indsFrom indsTo : List Nat) (values : List Rat) (nStates nTimes dead : Option Nat) :
    Except PyErr SparseTPM := do
  let length := times.length
  if ¬ (length = (indsFrom.length &&& length) ∧
        (indsFrom.length &&& length) = (indsTo.length &&& length) ∧
        (indsTo.length &&& length) = values.length) then
    .error .valueError
  else
    let nStates := if length = 0 then some 0 else nStates
    let nTimes := if length = 0 then some 0 else nTimes
    let ns ← match nStates with
      | some n => pure n
      | none => do
        let a ← maxOf indsFrom
        let b ← maxOf indsTo
        pure (max a b + 1)
    let nt ← match nTimes with
      | some n => pure n
      | none => do
        let a ← maxOf times
        pure (a + 1)
    .ok { times := toUint16 times, indsFrom := toUint16 indsFrom, indsTo := toUint16 indsTo
          values := values, nStates := ns, nTimes := nt, dead := dead, iterCount := 0 }

/-- `_check_int_time_value`, `sparse.py:123-124`: `time % n_times` (python's sign convention). -/
def checkTime (self : SparseTPM) (time : Int) : Except PyErr Nat :=
  if self.nTimes = 0 then .error .zeroDivisionError
  else .ok (time % (self.nTimes : Int)).toNat

/-- `xs[mask]`: an `IndexError` when the lengths differ. (`sparse.py:103-121`) -/
def select {α : Type} (mask : List Bool) (xs : List α) : Except PyErr (List α) :=
  if mask.length = xs.length then
    .ok ((mask.zip xs).filterMap fun p => if p.1 then some p.2 else none)
  else .error .indexError

/-- One element of a fancy assignment: `m[i, j] = v`. (`sparse.py:103-121`) -/
def assign (m : Nat → Nat → Rat) (e : Nat × Nat × Rat) : Nat → Nat → Rat :=
  fun i j => if i = e.1 ∧ j = e.2.1 then e.2.2 else m i j

/-- The `n × n` array with the given entries. (`sparse.py:103-121`) -/
def tabulate (n : Nat) (m : Nat → Nat → Rat) : List (List Rat) :=
  (List.range n).map fun i => (List.range n).map fun j => m i j

/-- `__getitem__` for an int key, `sparse.py:103-121` (other keys raise `TypeError`).  A fancy
assignment with repeated indices keeps the last value. -/
def getItem (self : SparseTPM) (key : Int) : Except PyErr (List (List Rat)) := do
  let key ← self.checkTime key
  let mask := self.times.map (· == key)
  let fr ← select mask self.indsFrom
  let to ← select mask self.indsTo
  let va ← select mask self.values
  if fr.all (· < self.nStates) && to.all (· < self.nStates) then
    .ok (tabulate self.nStates ((fr.zip (to.zip va)).foldl assign fun _ _ => 0))
  else .error .indexError

/-- `np.nonzero` of an `n × n` array, row by row. (`sparse.py:126-150`) -/
def nonzero (n : Nat) (m : List (List Rat)) : List (Nat × Nat × Rat) :=
  (List.range n).flatMap fun i => (List.range n).filterMap fun j =>
    let v := ((m.getD i []).getD j 0)
    if v ≠ 0 then some (i, j, v) else none

/-- The shape of `m` is `(n, n)`. (`sparse.py:126-150`) -/
def isSquare (n : Nat) (m : List (List Rat)) : Bool :=
  m.length == n && m.all fun r => r.length == n

/-- `__setitem__` for an int key, `sparse.py:126-150`. -/
def setItem (self : SparseTPM) (key : Int) (m : List (List Rat)) : Except PyErr SparseTPM := do
  let key ← self.checkTime key
  if ¬ isSquare self.nStates m then .error .valueError
  else
    let keep := self.times.map (fun t => !(t == key))
    let new := nonzero self.nStates m
    let fr ← select keep self.indsFrom
    let to ← select keep self.indsTo
    let ti ← select keep self.times
    let va ← select keep self.values
    .ok { self with
      indsFrom := fr ++ new.map (·.1)
      indsTo := to ++ new.map (·.2.1)
      times := ti ++ new.map (fun _ => key)
      values := va ++ new.map (·.2.2) }

/-- `__iter__`, `sparse.py:152-155`. -/
def iter (self : SparseTPM) : SparseTPM := { self with iterCount := 0 }

/-- `__next__`, `sparse.py:157-164`. -/
def next (self : SparseTPM) : Except PyErr (List (List Rat) × SparseTPM) :=
  if self.iterCount < self.nTimes then do
    let m ← self.getItem (self.iterCount : Int)
    .ok (m, { self with iterCount := self.iterCount + 1 })
  else .error .stopIteration

/-- `np.unique(states)`: sorted, without repetition. (`sparse.py:166-207`) -/
def uniqueNat (states : List Nat) : List Nat :=
  (List.range (states.foldr (fun i a => max (i + 1) a) 0)).filter fun s => decide (s ∈ states)

/-- `sparse_monte_carlo`, `sparse.py:166-207`. `us` are the draws of line 202. The recursion of
line 194 is bounded by `fuel` (python's recursion limit). The caller's array `states` is changed
in place by line 191-193: the final content is returned with the new states. -/
def sparseMC (self : SparseTPM) (fuel : Nat) (time : Int) (states : List Nat) (us : List Rat) :
    Except PyErr (List Nat × List Nat) :=
  match fuel with
  | 0 => .error .recursionError
  | fuel + 1 => do
    let time ← self.checkTime time
    let pdfIndices := uniqueNat states
    let inv := states.map fun s => pdfIndices.idxOf s
    if self.times.length ≠ self.indsFrom.length then .error .valueError  -- `&` cannot broadcast
    else
      let mask := (self.times.zip self.indsFrom).map fun p => (p.1 == time) && pdfIndices.contains p.2
      let fr ← select mask self.indsFrom
      let isDead := fun s => !(fr.contains s)
      if states.any isDead && self.dead.isSome then
        match self.dead with
        | some d => self.sparseMC fuel time (states.map fun s => if isDead s then d else s) us
        | none => .error .valueError -- unreachable
      else
        let va ← select mask self.values
        let to ← select mask self.indsTo
        let cdf := cumsum va
        let out ← (us.zip inv).mapM fun p =>
          pyGet to (searchsortedLeft cdf (p.1 + (p.2 : Rat)))
        .ok (states, out)

end SparseTPM

/-! ## Saving and loading -/

/-- The content of a `.npy` file. (`sparse.py:209-238`) -/
inductive NpyFile where
  | nats (xs : List Nat)
  | rats (xs : List Rat)
  deriving DecidableEq, Repr

/-- Files, by path. (`sparse.py:209-238`) -/
abbrev NpyFS := Dict String NpyFile

/-- `np.load` of an integer array. (`sparse.py:222-238`) -/
def loadNats (fs : NpyFS) (path : String) : Except PyErr (List Nat) :=
  match fs path with
  | none => .error .fileNotFoundError
  | some (.nats xs) => .ok xs
  | some (.rats _) => .error .valueError

/-- `np.load` of a float array. (`sparse.py:222-238`) -/
def loadRats (fs : NpyFS) (path : String) : Except PyErr (List Rat) :=
  match fs path with
  | none => .error .fileNotFoundError
  | some (.rats xs) => .ok xs
  | some (.nats _) => .error .valueError

namespace SparseTPM

/-- `save`, `sparse.py:209-220` (`np.save` appends `.npy`). -/
def save (self : SparseTPM) (path : String) (fs : NpyFS) : NpyFS :=
  (((fs.set (path ++ "_tpm_times.npy") (.nats self.times)).set
    (path ++ "_tpm_inds_from.npy") (.nats self.indsFrom)).set
    (path ++ "_tpm_inds_to.npy") (.nats self.indsTo)).set
    (path ++ "_tpm_values.npy") (.rats self.values)

/-- `load`, `sparse.py:222-238`. -/
def load (path : String) (fs : NpyFS) : Except PyErr SparseTPM := do
  let times ← loadNats fs (path ++ "_tpm_times.npy")
  let indsFrom ← loadNats fs (path ++ "_tpm_inds_from.npy")
  let indsTo ← loadNats fs (path ++ "_tpm_inds_to.npy")
  let values ← loadRats fs (path ++ "_tpm_values.npy")
  create times indsFrom indsTo values none none none

end SparseTPM

end Demod
