import Mathlib.Algebra.Field.Rat

/-!
# The mean temperature of the days (`CrestClimateSimulator._update_ARMA`,
`demod/simulators/weather_simulators.py:347-433`)

Rational numbers instead of floats; the sine of the day of the year is a parameter.
-/

namespace Demod

/-- What `load_temperatures_arma` gives, `weather_simulators.py:342-343` (`T_shift` is in the seasonal function). -/
structure ArmaDic where
  mean : Rat
  std : Rat
  AR : Rat
  MA : Rat
  SD : Rat

/-- The variables that `_update_ARMA` writes, `weather_simulators.py:422-433`. -/
structure ArmaState where
  r : Rat
  ar : Rat
  ma : Rat
  arma : Rat
  tdAr : Rat
  tdArma : Rat

/-- The start of `initialize_starting_state`, `weather_simulators.py:349-353`; `z` is the value of `randn`. The two
temperatures do not exist before the first update: 0 here. -/
def armaStart (d : ArmaDic) (z : Rat) : ArmaState := { r := z * d.SD, ar := 0, ma := 0, arma := 0, tdAr := 0, tdArma := 0 }

/-- `_update_ARMA`, `weather_simulators.py:408-433`; `season` is the sine for the current day of the year, `z` the value
of `randn`. -/
def armaUpdate (d : ArmaDic) (season : Rat) (z : Rat) (s : ArmaState) : ArmaState :=
  let r := z * d.SD
  let ar := s.ar * d.AR + r
  let ma := s.r * d.MA + r
  let arma := s.ar * d.AR + s.r * d.MA + r
  let td := d.mean + d.std * season
  { r := r, ar := ar, ma := ma, arma := arma, tdAr := td + ar, tdArma := td + arma }

/-- The state after the updates of `n` days; each day is updated once, in `on_before_next_day`
(`weather_simulators.py:347-374`). -/
def armaRun (d : ArmaDic) (season : Nat → Rat) (z : Nat → Rat) : Nat → ArmaState
  | 0 => armaStart d (z 0)
  | n + 1 => armaUpdate d (season (n + 1)) (z (n + 1)) (armaRun d season z n)

/-- The values of CREST, `CREST/loader.py:519-534`. -/
def crestArma : ArmaDic := { mean := 93 / 10, std := 65 / 10, AR := 81 / 100, MA := 62 / 100, SD := 1 / 2 }

end Demod
