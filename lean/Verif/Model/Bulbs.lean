import Verif.Model.Lighting
import Verif.Model.Sampling

/-!
# The bulbs of the households (`demod/simulators/lighting_simulators.py`)

The draws are arguments; numbers are rationals.
-/

namespace Demod

/-- The number of bulbs drawn for a household, `lighting_simulators.py:292-296`: `mean + std * z` truncated, at least 1; `z` is the draw of `np.random.randn`. -/
def bulbCount (mean std z : Rat) : Nat := (max (truncRat (mean + std * z)) 1).toNat

/-- The powers of the bulbs of one household, `lighting_simulators.py:299-304`: `us` are the draws of `monte_carlo_from_1d_pdf`, as many as the household has bulbs; the row is filled with zeros up to `width`. -/
def bulbRow (consumptions penetration : List Rat) (width : Nat) (us : List Rat) : Except PyErr (List Rat) := do
  let inds ← mcFrom1dPdf penetration us
  let powers ← inds.mapM fun k => pyGet consumptions k
  .ok (powers ++ List.replicate (width - powers.length) 0)

/-- `sample_bulbs_configuration` with `'randn'`, `lighting_simulators.py:277-305`: `zs` has a draw per household and `u h k` is the draw for bulb `k` of household `h`. `max` of nothing raises `ValueError`. -/
def bulbsRandn (mean std : Rat) (consumptions penetration : List Rat) (zs : List Rat) (u : Nat → Nat → Rat) : Except PyErr (List (List Rat)) :=
  let ns := zs.map (bulbCount mean std)
  if ns = [] then .error .valueError
  else
    let width := ns.foldl max 0
    (List.range ns.length).mapM fun h => bulbRow consumptions penetration width ((List.range (ns.getD h 0)).map (u h))

/-- `sample_bulbs_configuration` with `'config'`, `lighting_simulators.py:307-323`: `rs` are the draws, below the number of configurations; `randint(0, 0)` raises `ValueError`. -/
def bulbsConfig (configurations : List (List (Option Rat))) (rs : List Nat) : Except PyErr (List (List (Option Rat))) :=
  if configurations = [] then .error .valueError else rs.mapM fun r => pyGet configurations r

/-- `draw_random_durations` for one sample, `lighting_simulators.py:379-387`; `u` chooses the interval and `r` the place in it. -/
def drawBulbDuration (cdf low high : List Rat) (u r : Rat) : Except PyErr Rat := do
  let e ← mcCdf cdf u
  let a ← pyGet low e
  let b ← pyGet high e
  .ok (a + r * (b - a))

end Demod
