import Verif.Model.Time
import Mathlib.Algebra.Order.Field.Rat

/-!
# The two example simulators
(`demod/simulators/base_simulators.py`, lines 1022-1156)

The number of occupants of the `n` households is a function on `Fin n`; arrays of another length, for which numpy
raises, are excluded by typing.  Counts are integers: `occupants` is a float array after `'all_inside_at_4am'`, but it
only ever holds whole numbers when whole numbers arrive and leave.
-/

namespace Demod

/-- The arguments `arriving` and `leaving` of `step`. (`base_simulators.py:1064-1069`) -/
structure Movement (n : Nat) where
  arriving : Fin n → Int
  leaving : Fin n → Int

/-- `self.occupants += arriving; self.occupants -= leaving`, `base_simulators.py:1067-1068` (and 1140-1141). -/
def moveOccupants {n : Nat} (occ : Fin n → Int) (m : Movement n) : Fin n → Int :=
  let added := fun i => occ i + m.arriving i
  fun i => added i - m.leaving i

/-- `np.random.randint(0, high, size=n)`, `base_simulators.py:1059` (and 1108-1110): `ValueError` if there is no value
below `high`; `u` is an arbitrary draw, reduced to the range `0 … high - 1`. -/
def randintBelow {n : Nat} (high : Int) (u : Fin n → Nat) : Except PyErr (Fin n → Int) :=
  if high ≤ 0 then .error .valueError else .ok fun i => (u i : Int) % high

/-- The class `ExampleSimulator`, `base_simulators.py:1022-1069`: `step` moves the occupants, then calls the parent. The
logger can read the attribute `occupants`; summing it over households is the array with the sum in every place. -/
def exampleClass (n : Nat) : SimClass (Fin n → Int) (Movement n) (Fin n → Int) where
  attr := fun a => if a = "occupants" then some fun s _ => .plain s else none
  cached := fun _ => false
  sum := fun v _ => ((List.finRange n).map v).sum
  before := fun m occ => moveOccupants occ m
  after := fun _ occ => occ

/-- `ExampleSimulator.__init__` with `initialize_starting_state`, `base_simulators.py:1029-1062`: the parent checks the
number of households, the occupants are drawn, no step is made. -/
def exampleInit (n : Nat) (maxResidents : Int) (u : Fin n → Nat) (logger : Option (Logger (Fin n → Int))) :
    Except PyErr (SimState (Fin n → Int) (Fin n → Int)) := do
  let s ← (exampleClass n).construct (fun _ => 0) n logger
  let occ ← randintBelow maxResidents u
  (exampleClass n).initialise { s with own := occ } 0 ⟨fun _ => 0, fun _ => 0⟩

/-- The variables of `TimeAwareExampleSimulator`: the occupants, and what it has printed so far.
(`base_simulators.py:1072-1156`) -/
structure ExampleVars (n : Nat) where
  occ : Fin n → Int
  printed : List Rat

/-- `np.mean(self.occupants==0) * 100`, `base_simulators.py:1154-1155` (exact instead of float). -/
def emptyPercent {n : Nat} (occ : Fin n → Int) : Rat :=
  (((List.finRange n).countP fun i => decide (occ i = 0) : Nat) : Rat) / ((n : Nat) : Rat) * 100

/-- `on_before_next_day_4am` as called by the decorator of `step`, `base_simulators.py:1136-1156` and 961-965: printed
before the occupants move, if the coming step enters the hour of 4 am. -/
def printAt4am {n : Nat} (step t : Int) (v : ExampleVars n) : List Rat :=
  if firesBeforeNextDay4am t step then v.printed ++ [emptyPercent v.occ] else v.printed

/-- The class `TimeAwareExampleSimulator`, `base_simulators.py:1072-1156`, with the clock of its parent class
(lines 795-803). -/
def timeExampleClass (n : Nat) (step : Int) :
    SimClass (ExampleVars n × Int) (Movement n) (Fin n → Int) where
  attr := fun a => if a = "occupants" then some fun s _ => .plain s.1.occ else none
  cached := fun _ => false
  sum := fun v _ => ((List.finRange n).map v).sum
  before := fun m s =>
    let printed := printAt4am step s.2 s.1
    ({ occ := moveOccupants s.1.occ m, printed := printed }, s.2 + step)
  after := fun _ s => s

/-- `TimeAwareExampleSimulator.__init__` with `initialize_starting_state`, `base_simulators.py:1078-1134`: the start is
drawn, or everybody is inside at 4 am and the steps up to the start are made without arrivals and departures. -/
def timeExampleInit (n : Nat) (step start maxResidents : Int) (algo : String) (u : Fin n → Nat)
    (logger : Option (Logger (Fin n → Int))) :
    Except PyErr (SimState (ExampleVars n × Int) (Fin n → Int)) := do
  let s ← (timeExampleClass n step).construct (⟨fun _ => 0, []⟩, start) n logger
  if algo = "random" then
    let occ ← randintBelow maxResidents u
    taInitialise (timeExampleClass n step) step { s with own := (⟨occ, []⟩, start) } (.datetime start)
      ⟨fun _ => 0, fun _ => 0⟩
  else if algo = "all_inside_at_4am" then
    taInitialise (timeExampleClass n step) step { s with own := (⟨fun _ => maxResidents * 1, []⟩, start) }
      (.time (4 * HOUR)) ⟨fun _ => 0, fun _ => 0⟩
  else .error .notImplementedError

end Demod
