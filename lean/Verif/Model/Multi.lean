import Verif.Model.Py

/-!
# `MultiSimulator` (`demod/simulators/base_simulators.py`, lines 545-675)

The sub-simulators are arbitrary state machines: `σ` is their state, `β` the type of the
entries of the per-household arguments, `ν` the type of the entries of getter results.
-/

namespace Demod

/-- A sub-simulator: number of households, attribute `subgroup`, current state. (`base_simulators.py:559-586`) -/
structure Sub (σ κ υ : Type) where
  n : Nat
  subgroup : κ → Option υ
  state : σ

variable {σ κ υ β ν : Type}

/-- Arguments of a step: positional arguments and keyword arguments, each one an array with
one entry per household. (`base_simulators.py:588-612`) -/
structure StepArgs (β : Type) where
  args : List (List β)
  kwargs : List (String × List β)

/-- `values[off:off+n]` (`base_simulators.py:588-612`) -/
def slice (off n : Nat) (values : List β) : List β := (values.drop off).take n

/-- The arguments for the sub-simulator at offset `off`, `base_simulators.py:601-607`. -/
def StepArgs.slice (a : StepArgs β) (off n : Nat) : StepArgs β :=
  { args := a.args.map (Demod.slice off n)
    kwargs := a.kwargs.map fun p => (p.1, Demod.slice off n p.2) }

/-- The loop of `MultiSimulator.step`, `base_simulators.py:599-610`. `f` is the `step` of the
sub-simulators. -/
def multiStepFrom (f : σ → StepArgs β → Except PyErr σ) (a : StepArgs β) :
    Nat → List (Sub σ κ υ) → Except PyErr (List (Sub σ κ υ))
  | _, [] => .ok []
  | off, s :: ss => do
    let st ← f s.state (a.slice off s.n)
    let rest ← multiStepFrom f a (off + s.n) ss
    .ok ({ s with state := st } :: rest)

/-- The `MultiSimulator`: sub-simulators and the cache of the collected getters. (`base_simulators.py:559-586`) -/
structure Multi (σ κ υ ν : Type) where
  nHouseholds : Nat
  subs : List (Sub σ κ υ)
  cache : Dict String (List ν)

/-- `MultiSimulator.__init__`, `base_simulators.py:574-580`, with the check of
`Simulator.__init__` (line 473). `n_residents` (lines 583-586) is not modelled. -/
def Multi.create (subs : List (Sub σ κ υ)) : Except PyErr (Multi σ κ υ ν) :=
  let n := (subs.map fun s => s.n).sum
  if n ≤ 0 then .error .valueError
  else .ok { nHouseholds := n, subs := subs, cache := Dict.empty }

/-- `MultiSimulator.step`, `base_simulators.py:588-612`; `super().step()` clears the cache. -/
def Multi.step (f : σ → StepArgs β → Except PyErr σ) (m : Multi σ κ υ ν) (a : StepArgs β) :
    Except PyErr (Multi σ κ υ ν) := do
  let subs ← multiStepFrom f a 0 m.subs
  .ok { m with subs := subs, cache := Dict.empty }

/-- A getter made by `_create_multi_getter`, `base_simulators.py:632-645`, called without
household index. -/
def Multi.get (g : String → σ → List ν) (m : Multi σ κ υ ν) (name : String) :
    List ν × Multi σ κ υ ν :=
  match m.cache name with
  | some v => (v, m)
  | none =>
    let v := (m.subs.map fun s => g name s.state).flatten
    (v, { m with cache := m.cache.set name v })

/-- The getter called with a household index, `base_simulators.py:641-645`; negative indices
(which python counts from the end) are not modelled. -/
def Multi.getHousehold (g : String → σ → List ν) (m : Multi σ κ υ ν) (name : String) (i : Nat) :
    Except PyErr ν × Multi σ κ υ ν :=
  let (v, m') := m.get g name
  (match v[i]? with
    | some x => .ok x
    | none => .error .indexError, m')

/-- `MultiSimulator.get_mask_subgroup`, `base_simulators.py:652-675`. -/
def Multi.maskSubgroup [DecidableEq υ] (m : Multi σ κ υ ν) (request : List (κ × υ)) : List Bool :=
  let isSubgroup := m.subs.map fun s =>
    request.all fun p =>
      match s.subgroup p.1 with
      | some v => v == p.2
      | none => false
  ((isSubgroup.zip m.subs).map fun p =>
    if p.1 then List.replicate p.2.n true else List.replicate p.2.n false).flatten

end Demod
