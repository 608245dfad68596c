import Verif.Model.Sampling

/-!
# Markov chain simulators (`demod/simulators/activity_simulators.py`, lines 77-475)

The uniform draws are explicit arguments: one list per call of the sampling functions. Labels have any type with
decidable equality. What `Simulator.step` does (time step, cache, logger) is modelled in `Model/Logger.lean`; it neither reads
nor writes the variables modelled here.
-/

namespace Demod

/-- A three-dimensional numpy array: its last two sizes, and the matrices. (`activity_simulators.py:94-152`) -/
structure Tpms where
  rows : Nat
  cols : Nat
  mats : List (List (List Rat))
deriving DecidableEq

/-- The instance variables of `MarkovChain1rstOrder`. `_cdf_iterator` is `itertools.cycle(cdf)`: the matrices `cdfs` and the
number `pos` of calls of `next` so far. (`activity_simulators.py:94-152`) -/
structure Markov (L : Type) where
  nHouseholds : Nat
  nStates : Nat
  tpms : Tpms
  labels : List L
  cdfs : List (List (List Rat))
  pos : Nat
  states : List Nat
deriving DecidableEq

namespace Markov
variable {L : Type} [DecidableEq L]

/-- `MarkovChain1rstOrder.__init__`, `activity_simulators.py:94-152`. `Simulator.__init__` rejects a number of households
`≤ 0`; the `TypeError` for something else than a numpy array is excluded by typing. The default labels
(`np.arange`) are given by the caller. -/
def create (nHouseholds nStates : Nat) (tpms : Tpms) (labels : List L) : Except PyErr (Markov L) :=
  if nHouseholds = 0 then .error .valueError
  else if tpms.cols ≠ tpms.rows then .error .valueError
  else if tpms.cols ≠ nStates then .error .valueError
  else if labels.length ≠ nStates then .error .valueError
  else .ok { nHouseholds := nHouseholds, nStates := nStates, tpms := tpms, labels := labels, cdfs := [], pos := 0, states := [] }

/-- `next(self._cdf_iterator)`: `StopIteration` for no matrix at all. (`activity_simulators.py:267-277`) -/
def next (m : Markov L) : Except PyErr (List (List Rat) × Markov L) :=
  if m.cdfs = [] then .error .stopIteration
  else (pyGet m.cdfs (m.pos % m.cdfs.length)).map fun c => (c, { m with pos := m.pos + 1 })

/-- `np.where(lab == new_labels)[0]` (`activity_simulators.py:230-265`) -/
def positionsOf (lab : L) (labels : List L) : List Nat := (List.range labels.length).filter fun i => decide (labels[i]? = some lab)

/-- `_assign_new_labels`, `activity_simulators.py:230-265`. The order of `np.unique` does not matter, since its result
is only used through the inverse indices; here the distinct labels are in order of first occurrence. -/
def assignNewLabels (m : Markov L) (new : List L) : Except PyErr (Markov L) := do
  let old ← m.states.mapM (pyGet m.labels)
  let unique := old.eraseDups
  let inverse := old.map fun l => unique.idxOf l
  let positions := unique.map fun lab =>
    match positionsOf lab new with
    | [i] => i
    | _ => 0
  let states ← inverse.mapM (pyGet positions)
  .ok { m with states := states, labels := new }

/-- `_set_tpm`, `activity_simulators.py:199-228`. -/
def setTpm (m : Markov L) (tpms : List (List (List Rat))) (check : Bool) (newLabels : Option (List L)) : Except PyErr (Markov L) := do
  let cdf := tpms.map fun mat => mat.map cumsum
  if check then
    let _ ← checkValidCdf cdfEps cdf.flatten
  let (_, m) ← ({ m with cdfs := cdf, pos := 0 } : Markov L).next
  match newLabels with
  | some new => m.assignNewLabels new
  | none => .ok m

/-- `initialize_starting_state`, `activity_simulators.py:154-197`, with `start_time_step=0` and without logger (otherwise
`Simulator.initialize_starting_state` reads variables that do not exist yet). `us` has one draw per household. -/
def initialise (m : Markov L) (pdf : List Rat) (check : Bool) (us : List Rat) : Except PyErr (Markov L) := do
  if pdf.length ≠ m.nStates then .error .assertionError
  else
    let cdf := List.replicate m.nHouseholds (cumsum pdf)
    if check then
      let _ ← checkValidCdf cdfEps cdf
    let start ← mcFromCdf cdf us
    if start.all fun s => decide (s < m.nStates) then
      ({ m with states := start } : Markov L).setTpm m.tpms.mats check none
    else .error .assertionError

/-- `step`, `activity_simulators.py:267-277`. -/
def step (m : Markov L) (us : List Rat) : Except PyErr (Markov L) := do
  let (cdf, m) ← m.next
  let rows ← m.states.mapM (pyGet cdf)
  let states ← mcFromCdf rows us
  .ok { m with states := states }

/-- Several steps. (`activity_simulators.py:267-277`) -/
def run (m : Markov L) : List (List Rat) → Except PyErr (Markov L)
  | [] => .ok m
  | us :: uss => do
    let m ← m.step us
    m.run uss

/-- `get_n_doing_state`, `activity_simulators.py:279-280`. -/
def nDoingState (m : Markov L) (s : Nat) : List Bool := m.states.map fun x => decide (x = s)

/-- `get_n_doing_activity`, `activity_simulators.py:282-285`: `list.index` raises `ValueError` for an unknown label. -/
def nDoingActivity (m : Markov L) (a : L) : Except PyErr (List Bool) :=
  if a ∈ m.labels then .ok (m.nDoingState (m.labels.idxOf a)) else .error .valueError

end Markov

/-! ## Boolean masks -/

/-- `xs[mask]` (`activity_simulators.py:439-475`) -/
def gather {α : Type} : List Bool → List α → List α
  | true :: ms, x :: xs => x :: gather ms xs
  | false :: ms, _ :: xs => gather ms xs
  | _, _ => []

/-- `xs[mask] = new` (with as many new values as there are `True`). (`activity_simulators.py:439-475`) -/
def scatter {α : Type} : List Bool → List α → List α → List α
  | true :: ms, _ :: xs, n :: ns => n :: scatter ms xs ns
  | false :: ms, x :: xs, ns => x :: scatter ms xs ns
  | _, xs, _ => xs

/-- The duration arrays: for each matrix of the cycle, a row per new state, or per previous and new state
(`_use_previous_state_for_duration_flag`, given by the number of dimensions, `activity_simulators.py:414-416`). -/
inductive Durations where
  | perState (d : List (List (List Rat)))
  | perPrevious (d : List (List (List (List Rat))))

/-- `np.cumsum(duration_pdfs, axis=-1)`, `activity_simulators.py:423`. -/
def Durations.cumsum : Durations → Durations
  | .perState d => .perState (d.map fun m => m.map Demod.cumsum)
  | .perPrevious d => .perPrevious (d.map fun m => m.map fun r => r.map Demod.cumsum)

/-- The number of matrices in the cycle. (`activity_simulators.py:404-437`) -/
def Durations.size : Durations → Nat
  | .perState c => c.length
  | .perPrevious c => c.length

/-- `shape[1]` is the given number of states, `activity_simulators.py:418`: the arrays are rectangular. -/
def Durations.hasStates (d : Durations) (n : Nat) : Bool :=
  match d with
  | .perState c => c.all fun m => decide (m.length = n)
  | .perPrevious c => c.all fun m => decide (m.length = n)

/-- All the rows of the array, the last axis of `check_valid_cdf`, `activity_simulators.py:424-425`. -/
def Durations.rows : Durations → List (List Rat)
  | .perState c => c.flatten
  | .perPrevious c => c.flatten.flatten

/-- `cdf_time[new, :]` or `cdf_time[previous, new, :]` for the given matrix, `activity_simulators.py:459-473`. -/
def Durations.row (d : Durations) (i previous new : Nat) : Except PyErr (List Rat) :=
  match d with
  | .perState c => do
    let mat ← pyGet c i
    pyGet mat new
  | .perPrevious c => do
    let mat ← pyGet c i
    let rows ← pyGet mat previous
    pyGet rows new

/-- The first `n` draws of a stream. (`monte_carlo.py:62-80`) -/
def takeDraws (n : Nat) (u : Nat → Rat) : List Rat := (List.range n).map u

/-- The instance variables of `SemiMarkovSimulator`; `durations` are cdfs, in a cycle of which `durPos` elements have been taken. (`activity_simulators.py:319-402`) -/
structure SemiMarkov (L : Type) where
  chain : Markov L
  timesLeft : List Int
  durations : Durations
  durPos : Nat

namespace SemiMarkov
variable {L : Type} [DecidableEq L]

/-- `_set_duration_pdfs`, `activity_simulators.py:404-437`. The durations are checked whether or not the rest is. -/
def setDurations (m : SemiMarkov L) (pdfs : Durations) : Except PyErr (SemiMarkov L) := do
  if ¬ pdfs.hasStates m.chain.nStates then .error .valueError
  else
    let _ ← checkValidCdf cdfEps pdfs.cumsum.rows
    if pdfs.size = 0 then .error .stopIteration
    else .ok { m with durations := pdfs.cumsum, durPos := 1 }

/-- `initialize_starting_state`, `activity_simulators.py:364-402`, after the initialisation of the chain: the
starting durations and `_set_duration_pdfs`. `rows` are the `starting_durations_pdfs`. -/
def initialise (chain : Markov L) (rows : List (List Rat)) (pdfs : Durations) (us : List Rat) : Except PyErr (SemiMarkov L) := do
  let starts ← chain.states.mapM (pyGet rows)
  let d ← mcFromPdf starts us
  ({ chain := chain, timesLeft := d.map fun (x : Nat) => (x : Int) - 1, durations := pdfs, durPos := 0 } : SemiMarkov L).setDurations pdfs

/-- `mask_change_state`, `activity_simulators.py:449`. -/
def changing (m : SemiMarkov L) : List Bool := m.timesLeft.map fun t => decide (t < 1)

/-- `step`, `activity_simulators.py:439-475`: `u` and `v` are the draws of the two calls of the sampling function, which takes one
draw per subject that changes. -/
def step (m : SemiMarkov L) (u v : Nat → Rat) : Except PyErr (SemiMarkov L) := do
  let mask := m.changing
  let previous := gather mask m.chain.states
  let (cdf, chain) ← m.chain.next
  let rows ← previous.mapM (pyGet cdf)
  let new ← mcFromCdf rows (takeDraws rows.length u)
  let states := scatter mask chain.states new
  if m.durations.size = 0 then .error .stopIteration
  else
    let i := m.durPos % m.durations.size
    let durRows ← (previous.zip new).mapM fun q => m.durations.row i q.1 q.2
    let d ← mcFromCdf durRows (takeDraws durRows.length v)
    let times := scatter mask m.timesLeft (d.map fun (x : Nat) => (x : Int))
    .ok { m with chain := { chain with states := states }, timesLeft := times.map fun t => t - 1, durPos := m.durPos + 1 }

/-- Several steps. (`activity_simulators.py:439-475`) -/
def run (m : SemiMarkov L) : List ((Nat → Rat) × (Nat → Rat)) → Except PyErr (SemiMarkov L)
  | [] => .ok m
  | d :: ds => do
    let m ← m.step d.1 d.2
    m.run ds

end SemiMarkov

end Demod
