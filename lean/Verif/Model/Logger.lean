import Verif.Model.Py

/-!
# `SimLogger`, `cached_getter` and `Simulator`
(`demod/simulators/base_simulators.py`, lines 16-532)

`V` is the type of the values that getters return (numpy arrays, scalars,
datetimes); `np.sum` over the households is the parameter `sum : V → V`.
-/

namespace Demod

/-- What a getter returns: a plain value or a dictionary of values
(`base_simulators.py:234-258` distinguishes these two).  Dictionaries are key/value
lists because `visit_simulator` iterates over them. -/
inductive Res (V : Type) where
  | plain (v : V)
  | dict (kv : List (String × V))
  deriving DecidableEq, Repr

/-- What `dic_results[attribute]` holds: a list of the records, or (after a first
dictionary record) one list per key. `base_simulators.py:243-258`. -/
inductive Stored (V : Type) where
  | list (xs : List (Res V))
  | dict (kv : List (String × List V))
  deriving DecidableEq, Repr

/-- `SimLogger` attributes, `base_simulators.py:75-102`. -/
structure Logger (V : Type) where
  attrs : List String
  aggregated : List Bool
  dic : Dict String (Stored V)
  length : Nat

/-- The `aggregated` argument of the constructor: a bool or a list. (`base_simulators.py:57-102`) -/
inductive AggArg where
  | flag (b : Bool)
  | list (bs : List Bool)

/-- `_protected`, `base_simulators.py:54`. -/
def protectedNames : List String := ["current_time"]

namespace Logger
variable {V : Type}

/-- `{att: [] for att in attributes_list}`, `base_simulators.py:97-100`. -/
def emptyDic (attrs : List String) : Dict String (Stored V) :=
  fun a => if a ∈ attrs then some (.list []) else none

/-- `SimLogger.__init__`, `base_simulators.py:57-102`.
The two accepted call styles (a list, or several strings) both give a list of
names; the `TypeError` branches (neither list nor str; neither list nor bool) are
excluded by typing. -/
def create (attrs : List String) (agg : AggArg) : Except PyErr (Logger V) :=
  match agg with
  | .list bs =>
    if bs.length ≠ attrs.length then .error .valueError
    else .ok { attrs := attrs, aggregated := bs, dic := emptyDic attrs, length := 0 }
  | .flag b =>
    .ok { attrs := attrs
          aggregated := attrs.map fun a => if a ∈ protectedNames then false else b
          dic := emptyDic attrs
          length := 0 }

/-- `SimLogger.__add__`, `base_simulators.py:104-135`. The aliasing of the lists of the
two loggers after the addition is not modelled; the `TypeError` branch (the other
object is not a logger) is excluded by typing. -/
def add (l o : Logger V) : Except PyErr (Logger V) :=
  if l.length ≠ o.length then .error .valueError
  else .ok { attrs := l.attrs ++ o.attrs
             aggregated := l.aggregated ++ o.aggregated
             dic := l.dic.update o.dic
             length := l.length }

/-- The result of `SimLogger.get`. (`base_simulators.py:137-173`) -/
inductive Got (V : Type) where
  | list (xs : List (Res V))
  | dict (kv : List (String × List V))
  deriving DecidableEq, Repr

/-- Body of `SimLogger.get` for a named attribute, `base_simulators.py:161-173`.
`[:-1]` is `List.dropLast`. -/
def getNamed (l : Logger V) (a : String) : Except PyErr (Got V) :=
  if a ∈ l.attrs then
    match l.dic a with
    | none => .error .keyError
    | some (.dict kv) => .ok (.dict (kv.map fun p => (p.1, p.2.dropLast)))
    | some (.list xs) => .ok (.list xs.dropLast)
  else .error .valueError

/-- `SimLogger.get`, `base_simulators.py:137-173`. -/
def get (l : Logger V) : Option String → Except PyErr (Got V)
  | none =>
    match l.attrs with
    | [a] => l.getNamed a
    | _ => .error .valueError
  | some a => l.getNamed a

/-- `SimLogger.clear` for one attribute name, `base_simulators.py:191-193,199-201`. -/
def clearOne (l : Logger V) (a : String) : Except PyErr (Logger V) :=
  if a ∈ l.attrs then .ok { l with dic := l.dic.set a (.list []), length := 0 }
  else .error .valueError

/-- `SimLogger.clear()` without argument, `base_simulators.py:194-197,201`. -/
def clearAll (l : Logger V) : Logger V :=
  { l with dic := fun a => if a ∈ l.attrs then some (.list []) else l.dic a, length := 0 }

/-- `SimLogger.clear([...])`, `base_simulators.py:187-190,201`. On an unknown name the
exception leaves the names already processed cleared; the model returns only the
exception. -/
def clearList (l : Logger V) : List String → Except PyErr (Logger V)
  | [] => .ok { l with length := 0 }
  | a :: as => do
    let l' ← l.clearOne a
    l'.clearList as

/-- `SimLogger.copy`, `base_simulators.py:203-214`. -/
def copy (l : Logger V) : Logger V :=
  { attrs := l.attrs, aggregated := l.aggregated, dic := emptyDic l.attrs, length := l.length }

/-- `result` after the aggregation, `base_simulators.py:234-240`. -/
def aggregate (sum : V → V) (agg : Bool) (r : Res V) : Res V :=
  if agg then
    match r with
    | .dict kv => .dict (kv.map fun p => (p.1, sum p.2))
    | .plain v => .plain (sum v)
  else r

/-- Append `v` to the list of key `k`; `KeyError` if the key is absent,
`base_simulators.py:253-256`. -/
def appendKey (kv : List (String × List V)) (k : String) (v : V) :
    Except PyErr (List (String × List V)) :=
  match kv with
  | [] => .error .keyError
  | (k', vs) :: rest =>
    if k' = k then .ok ((k', vs ++ [v]) :: rest)
    else do
      let rest' ← appendKey rest k v
      .ok ((k', vs) :: rest')

/-- The loop `for key, value in result.items()`, `base_simulators.py:253-256`. -/
def appendAll (kv : List (String × List V)) : List (String × V) →
    Except PyErr (List (String × List V))
  | [] => .ok kv
  | (k, v) :: rest => do
    let kv' ← appendKey kv k v
    appendAll kv' rest

/-- Storing one record, `base_simulators.py:242-258`.  A record that is not a
dictionary after dictionary records is an `AttributeError` (`dict.append`). -/
def store (name : String) (old : Stored V) (r : Res V) : Except PyErr (Stored V) :=
  if name ∈ protectedNames then
    match old with
    | .list xs => .ok (.list (xs ++ [r]))
    | .dict _ => .error .attributeError
  else
    match r with
    | .dict kv =>
      match old with
      | .dict okv => (appendAll okv kv).map Stored.dict
      | .list _ => (appendAll (kv.map fun p => (p.1, [])) kv).map Stored.dict
    | .plain v =>
      match old with
      | .list xs => .ok (.list (xs ++ [.plain v]))
      | .dict _ => .error .attributeError

end Logger

/-- A class derived from `Simulator`: how its attributes read the own variables
(`σ`, together with `current_time_step`), which getters are decorated with
`cached_getter`, and what its `step` does before and after calling
`super().step()`. `ι` is the type of the arguments of `step`. (`base_simulators.py:429-532`) -/
structure SimClass (σ ι V : Type) where
  attr : String → Option (σ → Nat → Res V)
  cached : String → Bool
  sum : V → V
  before : ι → σ → σ
  after : ι → σ → σ

/-- The instance variables of a `Simulator`, `base_simulators.py:443-446`. -/
structure SimState (σ V : Type) where
  own : σ
  timeStep : Nat
  cache : Dict String (Res V)
  logger : Option (Logger V)

namespace SimClass
variable {σ ι V : Type}

/-- Calling a getter: through the cache if decorated with `cached_getter`
(`base_simulators.py:26-34`, without the household index), directly otherwise;
`AttributeError` if there is no such attribute. -/
def read (C : SimClass σ ι V) (s : SimState σ V) (name : String) :
    Except PyErr (Res V × SimState σ V) :=
  match C.attr name with
  | none => .error .attributeError
  | some g =>
    if C.cached name then
      match s.cache name with
      | some v => .ok (v, s)
      | none =>
        let v := g s.own s.timeStep
        .ok (v, { s with cache := s.cache.set name v })
    else .ok (g s.own s.timeStep, s)

/-- The loop of `visit_simulator`, `base_simulators.py:228-258`. -/
def visitLoop (C : SimClass σ ι V) : List (String × Bool) → SimState σ V →
    Dict String (Stored V) → Except PyErr (SimState σ V × Dict String (Stored V))
  | [], s, d => .ok (s, d)
  | (a, agg) :: rest, s, d => do
    let (r, s') ← C.read s a
    match d a with
    | none => .error .keyError
    | some old =>
      let new ← Logger.store a old (Logger.aggregate C.sum agg r)
      C.visitLoop rest s' (d.set a new)

/-- `SimLogger.visit_simulator`, `base_simulators.py:216-260`, called on the
simulator's own logger (nothing happens without a logger, lines 514, 531). -/
def visit (C : SimClass σ ι V) (s : SimState σ V) : Except PyErr (SimState σ V) :=
  match s.logger with
  | none => .ok s
  | some l => do
    let (s', d') ← C.visitLoop (l.attrs.zip l.aggregated) s l.dic
    .ok { s' with logger := some { l with dic := d', length := l.length + 1 } }

/-- `Simulator.step`, `base_simulators.py:520-532`. -/
def baseStep (C : SimClass σ ι V) (s : SimState σ V) : Except PyErr (SimState σ V) :=
  C.visit { s with timeStep := s.timeStep + 1, cache := Dict.empty }

/-- `step` of the derived class: own updates around `super().step()`. (`base_simulators.py:519-532`) -/
def step (C : SimClass σ ι V) (s : SimState σ V) (i : ι) : Except PyErr (SimState σ V) := do
  let s' ← C.baseStep { s with own := C.before i s.own }
  .ok { s' with own := C.after i s'.own }

/-- Several calls of `step`, each with its own argument. (`base_simulators.py:519-532`) -/
def run (C : SimClass σ ι V) (s : SimState σ V) : List ι → Except PyErr (SimState σ V)
  | [] => .ok s
  | i :: is => do
    let s' ← C.step s i
    C.run s' is

/-- `Simulator.initialize_starting_state`, `base_simulators.py:486-517`: `warm` calls of
`step` with the same argument, then the logger is cleared and visits once.  A
non-integer argument (TypeError) is excluded by typing. -/
def initialise (C : SimClass σ ι V) (s : SimState σ V) (warm : Int) (arg : ι) :
    Except PyErr (SimState σ V) :=
  if warm < 0 then .error .valueError
  else do
    let s' ← C.run { s with timeStep := 0 } (List.replicate warm.toNat arg)
    C.visit { s' with logger := s'.logger.map Logger.clearAll }

/-- `Simulator.__init__`, `base_simulators.py:448-484`: the number of households is
validated and the logger is copied.  The own variables are those that the derived
class assigns.  The casts (`TypeError`) are excluded by typing. -/
def construct (_C : SimClass σ ι V) (own : σ) (nHouseholds : Int) (logger : Option (Logger V)) :
    Except PyErr (SimState σ V) :=
  if nHouseholds ≤ 0 then .error .valueError
  else .ok { own := own, timeStep := 0, cache := Dict.empty, logger := logger.map Logger.copy }

end SimClass
end Demod
