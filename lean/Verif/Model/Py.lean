/-!
# Python conventions shared by all the models

Exceptions are values: a function that can raise returns `Except PyErr α`.
Messages are dropped, only the exception class is kept.
-/

namespace Demod

/-- The python exception classes raised in the modelled code (for instance `base_simulators.py:414-424`). -/
inductive PyErr where
  | typeError
  | valueError
  | keyError
  | indexError
  | attributeError
  | notImplementedError
  | stopIteration
  | assertionError
  | zeroDivisionError
  | fileNotFoundError
  | decodeError
  | badFile
  | recursionError
  | overflowError
  | unboundLocalError
  | exception
  deriving DecidableEq, Repr

deriving instance DecidableEq for Except

/-- `xs[i]` for a non-negative index (used throughout, for instance `activity_simulators.py:267-277`). -/
def pyGet {α : Type} (xs : List α) (i : Nat) : Except PyErr α :=
  match xs[i]? with
  | some x => .ok x
  | none => .error .indexError

/-- A python `dict` whose iteration order is irrelevant (`base_simulators.py:39-260`). -/
abbrev Dict (κ : Type) (α : Type) := κ → Option α

namespace Dict
variable {κ α : Type} [DecidableEq κ]

/-- `{}` (`base_simulators.py:57-102`) -/
def empty : Dict κ α := fun _ => none

/-- `d[k] = v` (`base_simulators.py:216-260`) -/
def set (d : Dict κ α) (k : κ) (v : α) : Dict κ α :=
  fun k' => if k' = k then some v else d k'

/-- `d.update(e)`: entries of `e` win (`base_simulators.py:104-135`). -/
def update (d e : Dict κ α) : Dict κ α := fun k => (e k).orElse (fun _ => d k)

end Dict

end Demod
