import Verif.Model.Sparse

/-!
# What "behaves like a dense array of matrices" means

`D` is a dense array of `T` matrices of size `n × n`, indexed modulo `T` as in python.
-/

namespace Demod

/-- An access through the public API: `tpm[key] = m` or `tpm[key]`. -/
inductive TpmOp where
  | set (key : Int) (m : List (List Rat))
  | get (key : Int)
  deriving DecidableEq, Repr

/-- What the caller sees. -/
inductive TpmObs where
  | done
  | matrix (m : List (List Rat))
  | raised (e : PyErr)
  deriving DecidableEq, Repr

/-- A matrix is `n × n`. -/
def Square (n : Nat) (m : List (List Rat)) : Prop := m.length = n ∧ ∀ r ∈ m, r.length = n

instance (n : Nat) (m : List (List Rat)) : Decidable (Square n m) := by unfold Square; infer_instance

/-- Observations of a sequence of accesses to a dense array. -/
def denseExec (n T : Nat) : List TpmOp → (Nat → List (List Rat)) → List TpmObs
  | [], _ => []
  | .get key :: ops, D => .matrix (D (key % (T : Int)).toNat) :: denseExec n T ops D
  | .set key m :: ops, D =>
    if Square n m then
      .done :: denseExec n T ops (fun t => if t = (key % (T : Int)).toNat then m else D t)
    else .raised .valueError :: denseExec n T ops D

/-- Observations of the same accesses to a `SparseTPM`; an exception leaves it unchanged. -/
def sparseExec : List TpmOp → SparseTPM → List TpmObs
  | [], _ => []
  | .get key :: ops, s =>
    (match s.getItem key with
      | .ok m => .matrix m
      | .error e => .raised e) :: sparseExec ops s
  | .set key m :: ops, s =>
    match s.setItem key m with
    | .ok s' => .done :: sparseExec ops s'
    | .error e => .raised e :: sparseExec ops s

namespace SparseTPM

/-- Well-formed: parallel lists, at least one time, indices in range. -/
structure WF (s : SparseTPM) : Prop where
  lf : s.indsFrom.length = s.times.length
  lt : s.indsTo.length = s.times.length
  lv : s.values.length = s.times.length
  pos : 0 < s.nTimes
  bf : ∀ i ∈ s.indsFrom, i < s.nStates
  bt : ∀ i ∈ s.indsTo, i < s.nStates

/-- The entries `(time, from, to, value)`. -/
def entries (s : SparseTPM) : List (Nat × Nat × Nat × Rat) :=
  s.times.zip (s.indsFrom.zip (s.indsTo.zip s.values))

/-- The entries of time `t` are in increasing order of `(from, to)`, without repetition. -/
def SortedAt (s : SparseTPM) (t : Nat) : Prop :=
  (s.entries.filter fun e => e.1 == t).Pairwise fun e f =>
    e.2.1 < f.2.1 ∨ (e.2.1 = f.2.1 ∧ e.2.2.1 < f.2.2.1)

instance (s : SparseTPM) (t : Nat) : Decidable (s.SortedAt t) := by unfold SortedAt; infer_instance

end SparseTPM

end Demod
