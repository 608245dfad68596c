import Verif.Model.Thermostat
import Verif.Model.Sampling

/-!
# The households of `VariableThermostatTemperatureSimulator`
(`demod/simulators/heating_simulators.py`, lines 60-362)

`Model/Thermostat` has one household; here are the attribution of the patterns and the arrays of all the households.
-/

namespace Demod

/-- The patterns in the order of `pattern_labels`, `heating_simulators.py:61-68`. -/
def allPatterns : List HeatPattern :=
  [.coolConservers, .steadyAndSavvy, .fluctuators, .sizzlers, .onOffSwitchers, .toastyCruisers]

/-- `pattern_labels`, `heating_simulators.py:61-68`. -/
def patternLabels : List String :=
  ["Cool Conservers", "Steady and Savvy", "Hot and Cold Fluctuators", "On-Demand Sizzlers", "On-off Switchers",
   "Toasty Cruisers"]

/-- The distribution of the living lab, `heating_simulators.py:165-167`. -/
def livingLab : List Rat := [6 / 100, 24 / 100, 17 / 100, 12 / 100, 28 / 100, 13 / 100]

/-- A value that a user gives for an optional argument. (`heating_simulators.py:181-205`) -/
inductive ArgVal where
  | none
  | logger
  | str (s : String)
  | other
  deriving DecidableEq

/-- Binding `*args, **kwargs` to a function with a single optional parameter `name`: `TypeError` for too many arguments,
an unknown keyword or a parameter that is given twice. (`heating_simulators.py:200-201`) -/
def bindOne (name : String) (default : ArgVal) (args : List ArgVal) (kwargs : List (String × ArgVal)) : Except PyErr ArgVal :=
  match args, kwargs with
  | [], [] => .ok default
  | [v], [] => .ok v
  | [], [(k, v)] => if k = name then .ok v else .error .typeError
  | _, _ => .error .typeError

/-- `Simulator.__init__(n_households, logger=None)`, `base_simulators.py:448-484`, as called with the optional
arguments of the simulator. -/
def baseInit (n : Nat) (args : List ArgVal) (kwargs : List (String × ArgVal)) : Except PyErr Unit := do
  let logger ← bindOne "logger" .none args kwargs
  if n = 0 then .error .valueError
  else match logger with
    | .none => .ok ()
    | .logger => .ok ()
    | _ => .error .typeError

/-- `attribute_patterns` with a value for the method, `heating_simulators.py:147-179`. `ints` are the values of
`randint`, reduced below the number of patterns, `us` the uniform draws, one per household. -/
def attributePatterns (n : Nat) (method : ArgVal) (ints : Fin n → Nat) (us : Fin n → Rat) : Except PyErr (List HeatPattern) :=
  match method with
  | .str s =>
    if s = "random" then (List.ofFn ints).mapM fun k => pyGet allPatterns (k % patternLabels.length)
    else if s = "living lab" then do
      let types ← mcFrom1dPdf livingLab (List.ofFn us)
      types.mapM (pyGet allPatterns)
    else if s ∈ patternLabels then (List.replicate n (patternLabels.idxOf s)).mapM (pyGet allPatterns)
    else .error .valueError
  | _ => .error .valueError

/-- The seven uniform draws of a household in `initialize_fixed_patterns`, `heating_simulators.py:82-145`. -/
structure UnitDraws where
  wakeHour : Rat
  wakeMinute : Rat
  change : Rat
  leaving : Rat
  returning : Rat
  bedHour : Rat
  bedMinute : Rat

/-- One result of `monte_carlo_from_1d_pdf` for a distribution of `k` outcomes. (`heating_simulators.py:88-143`) -/
def drawFin (k : Nat) (pdf : List Rat) (u : Rat) : Except PyErr (Fin k) := do
  let i ← mcCdf (cumsum pdf) u
  if h : i < k then .ok ⟨i, h⟩ else .error .indexError

/-- The draws of `initialize_fixed_patterns` for a household, `heating_simulators.py:88-143`. -/
def drawFixed (u : UnitDraws) : Except PyErr FixedDraws := do
  let wakeHour ← drawFin 4 (List.replicate 4 (1 / 4)) u.wakeHour
  let wakeMinute ← drawFin 6 ((1 / 2) :: List.replicate 5 (1 / 10)) u.wakeMinute
  let change ← drawFin 2 (List.replicate 2 (1 / 2)) u.change
  let leaving ← drawFin 20 (List.replicate 20 (1 / 20)) u.leaving
  let returning ← drawFin 20 (List.replicate 20 (1 / 20)) u.returning
  let bedHour ← drawFin 5 (List.replicate 5 (1 / 5)) u.bedHour
  let bedMinute ← drawFin 6 ((1 / 2) :: List.replicate 5 (1 / 10)) u.bedMinute
  .ok { wakeHour, wakeMinute, change, leaving, returning, bedHour, bedMinute }

/-- The arrays of the simulator. (`heating_simulators.py:181-213`) -/
structure VarSim (n : Nat) where
  pattern : Fin n → HeatPattern
  fixed : Fin n → FixedPattern
  time : Int
  lastOccupancy : Fin n → Nat
  lastActive : Fin n → Nat
  temperature : Fin n → Rat

/-- The inputs of `step`; the draws are indexed by the household for which they are used, instead of by its position among
the selected households. (`heating_simulators.py:215-283`) -/
structure PatternMove (n : Nat) where
  occupancy : Fin n → Nat
  active : Fin n → Nat
  change : Fin n → Bool
  increase : Fin n → Nat

/-- `x[mask] = v` (`heating_simulators.py:225-345`) -/
def maskPut {n : Nat} (mask : Fin n → Bool) (v : Fin n → Rat) (x : Fin n → Rat) : Fin n → Rat :=
  fun i => if mask i then v i else x i

namespace VarSim
variable {n : Nat}

/-- `__init__`, `heating_simulators.py:181-213`. -/
def create (n : Nat) (args : List ArgVal) (kwargs : List (String × ArgVal)) (occupancy active : Fin n → Nat) (start : Int)
    (ints : Fin n → Nat) (us : Fin n → Rat) (draws : Fin n → UnitDraws) : Except PyErr (VarSim n) := do
  baseInit n args kwargs
  let method ← bindOne "pattern_attribution_method" (.str "living lab") args kwargs
  let ps ← attributePatterns n method ints us
  let fs ← (List.ofFn draws).mapM drawFixed
  let pattern := fun i : Fin n => ps.getD i .coolConservers
  .ok { pattern := pattern
        fixed := fun i => FixedPattern.create (fs.getD i ⟨0, 0, 0, 0, 0, 0, 0⟩)
        time := start, lastOccupancy := occupancy, lastActive := active
        temperature := fun i => (pattern i).meanT }

/-- `update_fluctuators`, `heating_simulators.py:225-283`. -/
def updateFluctuators (s : VarSim n) (m : PatternMove n) (label : HeatPattern) (temps : Fin n → Rat) : Fin n → Rat :=
  let mask := fun i => decide (s.pattern i = label)
  let leaving := fun i => decide (m.occupancy i = 0) && decide (s.lastOccupancy i > 0)
  let arrival := fun i => decide (m.occupancy i > 0) && decide (s.lastOccupancy i = 0)
  let goBed := fun i => decide (m.active i = 0) && decide (s.lastActive i > 0) && !arrival i && !leaving i
  let wakeUp := fun i => decide (m.active i > 0) && decide (s.lastActive i = 0) && !arrival i && !leaving i
  let t := maskPut leaving (fun _ => LOW_T) temps
  let t := maskPut arrival (fun _ => label.meanT + label.maxDeviation) t
  let t := maskPut goBed (fun _ => label.meanT) t
  let t := maskPut wakeUp (fun _ => label.meanT + label.maxDeviation) t
  let t := maskPut (fun i => decide (m.active i > 0) && m.change i) (fun i => label.meanT + (m.increase i : Rat) / 2) t
  maskPut mask t temps

/-- `update_onoff_switchers`, `heating_simulators.py:285-304`. -/
def updateSwitchers (s : VarSim n) (m : PatternMove n) (temps : Fin n → Rat) : Fin n → Rat :=
  let mask := fun i => decide (s.pattern i = .onOffSwitchers)
  let occupied := fun i => decide (m.occupancy i > 0)
  let t := maskPut occupied (fun _ => HeatPattern.meanT .onOffSwitchers) temps
  let t := maskPut (fun i => !occupied i) (fun _ => LOW_T) t
  maskPut mask t temps

/-- `update_constant_patterns`, `heating_simulators.py:306-345`; `time` is the new time. -/
def updateConstants (s : VarSim n) (time : Int) (label : HeatPattern) (temps : Fin n → Rat) : Fin n → Rat :=
  let hour := hourOf time
  let minute := VarThermostat.minuteOf time
  let mask := fun i => decide (s.pattern i = label)
  let wakeUp := fun i => decide (((s.fixed i).wakeHour : Int) = hour) && decide (((s.fixed i).wakeMinute : Int) = minute)
  let leaving := fun i => (s.fixed i).changeDuringDay && (decide (((s.fixed i).leavingHour : Int) = hour) &&
    decide (((s.fixed i).leavingMinute : Int) = minute))
  let arrival := fun i => decide (((s.fixed i).returningHour : Int) = hour) && decide (((s.fixed i).returningMinute : Int) = minute)
  let goBed := fun i => decide (((s.fixed i).bedHour : Int) = hour) && decide (((s.fixed i).bedMinute : Int) = minute)
  let t := maskPut leaving (fun _ => label.meanT - label.maxDeviation) temps
  let t := maskPut arrival (fun _ => label.meanT + label.maxDeviation) t
  let t := maskPut goBed (fun _ => label.meanT) t
  let t := maskPut wakeUp (fun _ => label.meanT + label.maxDeviation) t
  maskPut mask t temps

/-- `step`, `heating_simulators.py:215-223`, and `update_thermostat_temperatures`, `heating_simulators.py:347-362`. -/
def step (s : VarSim n) (m : PatternMove n) : VarSim n :=
  let time := s.time + 600000000
  let t := s.updateFluctuators m .coolConservers s.temperature
  let t := s.updateFluctuators m .fluctuators t
  let t := s.updateFluctuators m .sizzlers t
  let t := s.updateSwitchers m t
  let t := s.updateConstants time .steadyAndSavvy t
  let t := s.updateConstants time .toastyCruisers t
  { s with time := time, temperature := t, lastOccupancy := m.occupancy, lastActive := m.active }

/-- Several steps. (`heating_simulators.py:215-223`) -/
def run (s : VarSim n) : List (PatternMove n) → VarSim n
  | [] => s
  | m :: ms => (s.step m).run ms

end VarSim

end Demod
