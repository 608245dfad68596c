import Verif.Model.Logger

/-!
# Specification vocabulary for the logger and the cache (C01, C02, C05)
-/

namespace Demod
variable {σ ι V : Type}

/-- How an attribute reads the simulator, by shape: a plain value, or a dictionary
with fixed keys. -/
inductive AttrSpec (σ V : Type) where
  | plain (f : σ → Nat → V)
  | dict (ks : List String) (f : String → σ → Nat → V)

/-- The getter described by an `AttrSpec`. -/
def AttrSpec.fn : AttrSpec σ V → σ → Nat → Res V
  | .plain f => fun s t => .plain (f s t)
  | .dict ks f => fun s t => .dict (ks.map fun k => (k, f k s t))

/-- Keys of a dictionary attribute are distinct, and `current_time` is no dictionary. -/
def AttrSpec.WF (name : String) : AttrSpec σ V → Prop
  | .plain _ => True
  | .dict ks _ => ks.Nodup ∧ name ∉ protectedNames

/-- The own variables of a simulator after a list of steps, when nobody logs or caches. -/
def ownAfter (C : SimClass σ ι V) (own : σ) (inputs : List ι) : σ :=
  inputs.foldl (fun s i => C.after i (C.before i s)) own

/-- What `get(attr)` has to return for an attribute of shape `sp` when the observed
states (own variables and time step, in order) are `h`: the values of the getter in
these states, summed over households if `agg`. -/
def expectedGot (sum : V → V) (agg : Bool) (sp : AttrSpec σ V) (h : List (σ × Nat)) :
    Logger.Got V :=
  match sp with
  | .plain f => .list (h.map fun p => .plain (if agg then sum (f p.1 p.2) else f p.1 p.2))
  | .dict ks f =>
    .dict (ks.map fun k => (k, h.map fun p => if agg then sum (f k p.1 p.2) else f k p.1 p.2))

/-- A user's interactions with a simulator: stepping it and calling getters. -/
inductive SimOp (ι : Type) where
  | step (i : ι)
  | call (name : String)

/-- Results of the getter calls of a list of interactions, as the code computes them
(cache included). -/
def execOps (C : SimClass σ ι V) : SimState σ V → List (SimOp ι) → Except PyErr (List (Res V))
  | _, [] => .ok []
  | s, .step i :: ops => do
    let s' ← C.step s i
    execOps C s' ops
  | s, .call a :: ops => do
    let (v, s') ← C.read s a
    let vs ← execOps C s' ops
    .ok (v :: vs)

/-- Results of the getter calls when every call recomputes its value from the
current state. -/
def specOps (C : SimClass σ ι V) : σ → Nat → List (SimOp ι) → Except PyErr (List (Res V))
  | _, _, [] => .ok []
  | own, t, .step i :: ops => specOps C (C.after i (C.before i own)) (t + 1) ops
  | own, t, .call a :: ops =>
    match C.attr a with
    | none => .error .attributeError
    | some g => do
      let vs ← specOps C own t ops
      .ok (g own t :: vs)

/-- Loggers as they arise: built by the constructor, then visited, cleared, added.
Every attribute has a record list. -/
def Logger.Covers (l : Logger V) : Prop := ∀ a ∈ l.attrs, (l.dic a).isSome

end Demod
