import Verif.Model.Appliance

/-!
# Electric cars (`demod/simulators/car_simulator.py`)

Arrays over households are functions of the household, of which the first `n` matter; arrays over cars are lists of `Car`. The random draws are arguments. Station
powers are not zero.
-/

namespace Demod

/-- One car: its household, its consumption (kWh / 100 km), its timer, and the entries of the state arrays (`car_simulator.py:74-103`). -/
structure Car where
  hh : Nat
  cons : Rat
  timer : Nat
  inUse : Bool
  charging : Bool
  left : Int
  used : Nat
deriving DecidableEq

/-- The attribute `charging_strategy`: an array over households or a number. (`car_simulator.py:58-71`) -/
inductive Strategy where
  | array (s : Nat → Nat)
  | number (s : Nat)

/-- `attributes_stategy`, `car_simulator.py:58-71`; `draw` are the random strategies of 'mixed'. -/
def chargingStrategy (method : String) (draw : Nat → Nat) : Except PyErr Strategy :=
  if method = "after use" then .ok (.array fun _ => 0)
  else if method = "timers" then .ok (.number 1)
  else if method = "mixed" then .ok (.array draw)
  else .error .valueError

/-- What the simulator keeps about a household. (`car_simulator.py:74-103`) -/
structure CarHouse where
  occupancy : Nat
  hoh : Nat
  hwh : Nat
deriving DecidableEq

/-- The inputs and draws of a household in a step: `byCar` is the draw `r` of `car_simulator.py:133`, `u` the uniform draw of `car_simulator.py:177`. -/
structure CarInput where
  occupancy : Nat
  hoh : Nat
  hwh : Nat
  byCar : Bool
  u : Rat

/-- The simulator. (`car_simulator.py:74-103`) -/
structure Fleet where
  n : Nat
  station : Nat → Rat
  strategy : Strategy
  step : Nat
  house : Nat → CarHouse
  cars : List Car

/-- `initialize_starting_state`, `car_simulator.py:98-103`. -/
def Car.reset (c : Car) : Car := { c with inUse := false, charging := false, left := 0, used := 0 }

/-- `car_simulator.py:125`. -/
def Car.tick (c : Car) : Car := if c.inUse then { c with used := c.used + 1 } else c

/-- `compute_trip_energy`, `car_simulator.py:105-116`, in kWh. -/
def Car.tripEnergy (c : Car) : Rat := c.cons * ((c.used : Rat) / 6 * 46 * (1 / 2)) / 100

/-- `car_simulator.py:153-154`: the number of steps to charge. -/
def Car.timeToCharge (c : Car) (station : Rat) : Int := truncRat (c.tripEnergy * 3600000 / station / 10 / 60)

/-- `car_simulator.py:149-156`. -/
def Car.arrive (c : Car) (station : Rat) : Car := { c with inUse := false, left := c.left + c.timeToCharge station, used := 0 }

/-- `car_simulator.py:209`, `n_times_till_charged`; `t` is the step of the day. -/
def Car.untilTimer (c : Car) (t : Nat) : Int := if (c.timer : Int) - t > 0 then (c.timer : Int) - t else (c.timer : Int) + (144 - t)

/-- `start_charging`, `car_simulator.py:201-213`; line 213 has no effect. -/
def Car.startCharging (c : Car) (arriving : Bool) (strategy t : Nat) : Car :=
  let c := if arriving && decide (strategy = 0) then { c with charging := true } else c
  if (decide (c.left = c.untilTimer t) && decide (strategy = 1)) && !c.inUse then { c with charging := true } else c

/-- `car_simulator.py:189-190`. -/
def Car.leave (c : Car) : Car := { c with inUse := true, charging := false }

/-- `update_charging`, `car_simulator.py:215-218`. -/
def Car.updateCharging (c : Car) : Car :=
  let c := if c.charging then { c with left := c.left - 1 } else c
  if c.left < 1 then { c with charging := false } else c

/-- `np.unique(car_hh[mask], return_index=True)` and the mask built from it (`car_simulator.py:141-144, 182-185`): the first car of each household among the candidates. `seen` are the households that have one already. -/
def pickFirst (cand : Car → Bool) : List Nat → List Car → List Bool
  | _, [] => []
  | seen, c :: cs => if cand c && !seen.contains c.hh then true :: pickFirst cand (c.hh :: seen) cs else false :: pickFirst cand seen cs

/-- `prob_leave_car_HOH`, `prob_leave_car_HWH`, `car_simulator.py:93-94`. -/
def PROB_HOH : List Rat := [0, 62679598 / 100000000, 81792453 / 100000000, 87903226 / 100000000, 93333333 / 100000000, 1]
/-- `car_simulator.py:93-94` -/
def PROB_HWH : List Rat := [0, 52228261 / 100000000, 47798742 / 100000000, 1 / 2, 1 / 2, 1 / 2]

/-- `car_simulator.py:163-172` for a household: the probability to leave by car. -/
def probLeave (h : CarHouse) (i : CarInput) : Except PyErr Rat :=
  if h.occupancy > i.occupancy then do
    let p ← if h.hwh < i.hwh then pyGet PROB_HWH (h.occupancy - i.occupancy) else .ok 0
    if h.hoh < i.hoh then pyGet PROB_HOH (h.occupancy - i.occupancy) else .ok p
  else .ok 0

/-- `step`, `car_simulator.py:118-198`. When an exception is raised the state that the code leaves behind (arrivals done, departures not) is not modelled. -/
def Fleet.next (f : Fleet) (input : Nat → CarInput) : Except PyErr Fleet := do
  let step := f.step + 1
  let t := step % 144
  let cars := f.cars.map Car.tick
  let inUse := fun h => cars.countP fun c => c.inUse && decide (c.hh = h)
  let arrival := fun h => ((decide ((f.house h).occupancy < (input h).occupancy) && (input h).byCar) || decide ((input h).hoh + (input h).hwh < inUse h)) && decide (inUse h > 0)
  let arriving := if t = 1 then cars.map fun _ => false else pickFirst (fun c => arrival c.hh && c.inUse) [] cars
  let strategy ← match f.strategy with
    | .array s => .ok s
    | .number _ => .error .typeError
  let cars := (cars.zip arriving).map fun x => (if x.2 then x.1.arrive (f.station x.1.hh) else x.1).startCharging x.2 (strategy x.1.hh) t
  let probs ← (List.range f.n).mapM fun h => probLeave (f.house h) (input h)
  let leaves := fun h => decide (probs.getD h 0 > (input h).u)
  let leaving := if t = 1 then cars.map fun _ => false else pickFirst (fun c => leaves c.hh && !c.inUse) [] cars
  let cars := (cars.zip leaving).map fun x => (if x.2 then x.1.leave else x.1).updateCharging
  return { f with step := step, house := fun h => ⟨(input h).occupancy, (input h).hoh, (input h).hwh⟩, cars := cars }

/-- Several steps. (`car_simulator.py:118-198`) -/
def Fleet.run (f : Fleet) : List (Nat → CarInput) → Except PyErr Fleet
  | [] => .ok f
  | i :: is => do (← f.next i).run is

/-- `get_electric_consumption`, `car_simulator.py:220-229`, of household `h`. -/
def Fleet.consumption (f : Fleet) (h : Nat) : Rat := ((f.cars.filter Car.charging).countP fun c => decide (c.hh = h) : Nat) * f.station h

/-- `get_n_used_cars`, `car_simulator.py:245-249`, of household `h`. -/
def Fleet.usedCars (f : Fleet) (h : Nat) : Nat := (f.cars.filter Car.inUse).countP fun c => decide (c.hh = h)

/-- `get_car_electric_consumption`, `car_simulator.py:231-243`, of a car, in W. -/
def Car.driving (c : Car) : Rat := if c.inUse then c.cons * 3600000 / 100 * (1 / 2) * 46 / 3600 else 0

end Demod
