import Verif.Model.Py
import Mathlib.Data.Rat.Defs
import Mathlib.Algebra.Field.Rat
import Mathlib.Algebra.Order.Field.Rat
import Mathlib.Algebra.BigOperators.Group.List.Basic

/-!
# The temperatures of a day (`CrestClimateSimulator._step_day`, `demod/simulators/weather_simulators.py:445-559`)

Rational numbers instead of floats; `none` is a value that is not a number (a division of or by zero nights).
-/

namespace Demod

/-- `np.nanmax` and `np.nanargmax` of the ratios of the daylight minutes (`weather_simulators.py:476-477`): the first minute with the largest value. -/
def firstMax : List (Nat × Rat) → Option (Nat × Rat)
  | [] => none
  | x :: xs =>
    match firstMax xs with
    | none => some x
    | some y => if y.2 > x.2 then some y else some x

/-- What `_step_day` computes before the night: `irr` is the array of irradiances. (`weather_simulators.py:445-523`) -/
structure TempDay where
  irr : List Rat
  clear : List Rat
  solar : Rat
  tdMin : Rat
  tdMax : Rat

namespace TempDay

/-- `irradiances[i]`. (`weather_simulators.py:445-559`) -/
def I (d : TempDay) (i : Nat) : Rat := d.irr.getD i 0

/-- `clearness_indexes[i]`. (`weather_simulators.py:445-559`) -/
def K (d : TempDay) (i : Nat) : Rat := d.clear.getD i 0

/-- `cumulative_radiation_2[i]`, `weather_simulators.py:448`. -/
def radiation (d : TempDay) (i : Nat) : Rat := ((List.range (i + 1)).map d.I).sum

/-- `cumulative_radiation_1[i]`, `weather_simulators.py:461-463`, where there is daylight. -/
def extraterrestrial (d : TempDay) (i : Nat) : Rat := ((List.range (i + 1)).map fun j => if d.I j > 0 then d.solar else 0).sum

/-- `cumulative_radiation_3[i]`, `weather_simulators.py:465-469`, where there is daylight. -/
def ratio (d : TempDay) (i : Nat) : Rat := d.radiation i / d.extraterrestrial i

/-- `np.where(irradiances > 0)[0]`. (`weather_simulators.py:445-477`) -/
def daylight (d : TempDay) : List Nat := (List.range d.irr.length).filter fun i => decide (d.I i > 0)

/-- `np.where(irradiances == 0)[0]`. (`weather_simulators.py:526-556`) -/
def nights (d : TempDay) : List Nat := (List.range d.irr.length).filter fun i => decide (d.I i = 0)

/-- `cumulative_radiation_4[i]` after `weather_simulators.py:523`; `kx` is the minute of the maximum and its ratio. -/
def dayTemp (d : TempDay) (kx : Nat × Rat) (i : Nat) : Rat :=
  let before := (d.tdMax - d.tdMin) / kx.2
  let after := before * (17 / 10)
  if d.I i > 0 then
    if i ≤ kx.1 then d.tdMin + before * d.ratio i else d.tdMax - after * (kx.2 - d.ratio i)
  else 0

/-- `CoolingRate - CloudCoolingRate * (mean - clearness[i])`, `weather_simulators.py:526-556`. -/
def cooling (d : TempDay) (dT : Rat) (i : Nat) : Rat :=
  let di : Rat := d.nights.length
  let mean := (d.nights.map d.K).sum / di
  dT / di - 1 / 40 * (mean - d.K i)

end TempDay

/-- `_step_day`; `dTd` is the range of temperatures of the day as a function of the irradiation in kWh (`weather_simulators.py:480-491`, with the logarithm and the random draw), `td` is `self.Td_arma` and `solar` `self.cSolarConstant`. -/
def tempDay (solar td : Rat) (dTd : Rat → Rat) (irr clear : List Rat) : Except PyErr (List (Option Rat)) :=
  let range := dTd (irr.sum / 1000 * (60 / 3600))
  let d : TempDay := { irr := irr, clear := clear, solar := solar, tdMin := td - 1 / 2 * range, tdMax := td + 1 / 2 * range }
  match firstMax (d.daylight.map fun i => (i, d.ratio i)), d.daylight.head?, d.daylight.getLast? with
  | some kx, some sunrise, some sunset =>
    let dT := d.dayTemp kx sunset - d.dayTemp kx sunrise
    let n := irr.length
    let base := d.dayTemp kx (if sunset = 0 then n - 1 else sunset - 1)
    let evening := fun i => base - ((List.range (i + 1 - sunset)).map fun j => d.cooling dT (sunset + j)).sum
    let last := evening (n - 1)
    let morning := fun i => last - ((List.range (i + 1)).map (d.cooling dT)).sum
    let hasNight := decide (d.nights.length ≠ 0)
    .ok ((List.range n).map fun i =>
      if i < sunrise then (if hasNight then some (morning i) else none)
      else if i < sunset then some (d.dayTemp kx i)
      else if hasNight then some (evening i) else none)
  | _, _, _ => .error .valueError

end Demod
