import Verif.Model.Logger

/-!
# Calendar, `TimeAwareSimulator` and `Callbacks`
(`demod/simulators/base_simulators.py`, lines 679-1015)

A naive `datetime` is an integer number of microseconds since 0001-01-01 00:00
(`datetime.min`), a `timedelta` an integer number of microseconds, as in CPython.
Time zones and the upper limit (year 9999) are not modelled.
-/

namespace Demod

/-- Microseconds in an hour. (`base_simulators.py:868-1015`) -/
def HOUR : Int := 3600000000
/-- Microseconds in a day. (`base_simulators.py:868-1015`) -/
def DAY : Int := 86400000000

/-- A calendar date (python `datetime.date`). (`base_simulators.py:868-1015`) -/
structure Date where
  year : Nat
  month : Nat
  day : Nat
  deriving DecidableEq, Repr

/-- Gregorian leap years (python `calendar.isleap`). (`base_simulators.py:920-934`) -/
def isLeap (y : Nat) : Bool := (y % 4 == 0) && ((y % 100 != 0) || (y % 400 == 0))

/-- Days of a month (python `calendar.monthrange`). (`base_simulators.py:920-934`) -/
def daysInMonth (y m : Nat) : Nat :=
  if m = 2 then (if isLeap y then 29 else 28)
  else if m = 4 ∨ m = 6 ∨ m = 9 ∨ m = 11 then 30 else 31

/-- The following day. (`base_simulators.py:920-951`) -/
def Date.next (d : Date) : Date :=
  if d.day < daysInMonth d.year d.month then { d with day := d.day + 1 }
  else if d.month < 12 then { year := d.year, month := d.month + 1, day := 1 }
  else { year := d.year + 1, month := 1, day := 1 }

/-- The date with the given number of days after 0001-01-01
(python `date.fromordinal(n + 1)`; used by `base_simulators.py:920-951`). -/
def dateOf : Nat → Date
  | 0 => { year := 1, month := 1, day := 1 }
  | n + 1 => (dateOf n).next

/-- Day number of an instant. (`base_simulators.py:868-1015`) -/
def dayNumber (t : Int) : Int := t / DAY

/-- Microseconds since midnight: `datetime.time()`. (`base_simulators.py:725-793`) -/
def timeOfDay (t : Int) : Int := t % DAY

/-- `datetime.hour` (`base_simulators.py:953-984`) -/
def hourOf (t : Int) : Int := timeOfDay t / HOUR

/-- The date of an instant (instants from 0001-01-01 on; `base_simulators.py:920-951`). -/
def dateAt (t : Int) : Date := dateOf (dayNumber t).toNat

/-- `date.weekday()`: 0 is Monday; 0001-01-01 was a Monday (`subgroup_handling.py:140-161`). -/
def weekday (t : Int) : Int := dayNumber t % 7

/-! ## Callbacks: do they call the `on_…` method in a step from `t` of size `step`? -/

/-- `Callbacks.before_refresh_time`, `base_simulators.py:896-899`. `refresh` is
`data.refresh_time` in microseconds since midnight. -/
def firesBeforeRefresh (refresh t _step : Int) : Bool := timeOfDay t == refresh

/-- `Callbacks.after_refresh_time`, `base_simulators.py:911-916`: the time before the
step is compared. -/
def firesAfterRefresh (refresh t _step : Int) : Bool :=
  let previous := timeOfDay t
  previous == refresh

/-- `Callbacks.before_next_day`, `base_simulators.py:928-932` (and the legacy
`before_next_day_callback`, lines 987-992). -/
def firesBeforeNextDay (t step : Int) : Bool :=
  let next := t + step
  decide ((dateAt next).day > (dateAt t).day)

/-- `Callbacks.after_next_day`, `base_simulators.py:944-949` (legacy: 993-1000). -/
def firesAfterNextDay (t step : Int) : Bool :=
  let previousDay := (dateAt t).day
  (dateAt (t + step)).day != previousDay

/-- `Callbacks.before_next_day_4am`, `base_simulators.py:961-965` (legacy: 1001-1007). -/
def firesBeforeNextDay4am (t step : Int) : Bool :=
  let nextHour := hourOf (t + step)
  nextHour == 4 && hourOf t != 4

/-- `Callbacks.after_next_day_4am`, `base_simulators.py:977-982` (legacy: 1008-1015). -/
def firesAfterNextDay4am (t step : Int) : Bool :=
  let previousHour := hourOf t
  hourOf (t + step) == 4 && previousHour != 4

/-- Number of calls of an `on_…` method during `n` steps from time `t`: the decorated
`step` checks the condition once per step and the clock advances by `step`
(`base_simulators.py:802`). -/
def countFires (fires : Int → Int → Bool) (step : Int) : Int → Nat → Nat
  | _, 0 => 0
  | t, n + 1 => (if fires t step then 1 else 0) + countFires fires step (t + step) n

/-! ## TimeAwareSimulator -/

/-- The accepted kinds of `initialization_time`, `base_simulators.py:759-782`. -/
inductive InitTime where
  | none
  | time (tod : Int)
  | datetime (t : Int)
  | other

/-- `initialization_datetime`, `base_simulators.py:758-782`. -/
def initDatetime (current : Int) : InitTime → Except PyErr Int
  | .time tod =>
    let d := dayNumber current * DAY + tod
    if d > current then .ok (d - DAY) else .ok d
  | .datetime t => if t > current then .error .valueError else .ok t
  | .none => .ok current
  | .other => .error .notImplementedError

variable {σ ι V : Type}

/-- A class derived from `TimeAwareSimulator`: its own variables are paired with
`current_time`, and `step` adds `step_size` to it before `Simulator.step`
(`base_simulators.py:795-803`). `C` describes the updates and getters of the derived
class; its getters cannot see the clock here, except the attribute `current_time`. -/
def timeAware (C : SimClass σ ι V) (ofTime : Int → V) (step : Int) : SimClass (σ × Int) ι V where
  attr := fun a =>
    if a = "current_time" then some fun s _ => .plain (ofTime s.2)
    else (C.attr a).map fun g s t => g s.1 t
  cached := C.cached
  sum := C.sum
  before := fun i s => (C.before i s.1, s.2 + step)
  after := fun i s => (C.after i s.1, s.2)

/-- `TimeAwareSimulator.initialize_starting_state`, `base_simulators.py:725-793`.
`int(timedelta / step_size)` is exact integer truncation (float rounding of the
quotient is not modelled), `%` is python's floored remainder; a zero step size raises
`ZeroDivisionError`. -/
def taInitialise (C : SimClass (σ × Int) ι V) (step : Int) (s : SimState (σ × Int) V)
    (init : InitTime) (arg : ι) : Except PyErr (SimState (σ × Int) V) := do
  let current := s.own.2
  let initDt ← initDatetime current init
  let delta := current - initDt
  if step = 0 then .error .zeroDivisionError
  else
    let nSteps := delta.tdiv step
    let remainder := delta.fmod step
    C.initialise { s with own := (s.own.1, initDt + remainder) } nSteps arg

end Demod
