import Mathlib.Data.Rat.Defs
import Mathlib.Algebra.Order.Ring.Rat

/-! # Shares of the set points, as temperature (°C) and share of the households -/

namespace Demod

/-- Shares of the set points of the rooms. -/
def homeShares : List (Rat × Rat) :=
  [(13, 1/100), (14, 2/100), (15, 1/100), (16, 3/100), (17, 4/100), (18, 8/100), (19, 16/100), (20, 14/100), (21, 16/100), (22, 16/100), (23, 9/100), (24, 5/100), (25, 3/100), (26, 1/100), (27, 1/100)]

/-- Shares of the set points of the hot water. -/
def waterShares : List (Rat × Rat) :=
  [(42, 4/100), (43, 4/100), (45, 11/100), (47, 8/100), (49, 13/100), (51, 9/100), (53, 14/100), (55, 11/100), (57, 8/100), (59, 10/100), (61, 4/100), (62, 4/100)]

/-- The share of the households with the set point `v`. -/
def householdsAt (table : List (Rat × Rat)) (v : Rat) : Rat := ((table.filter fun p => p.1 = v).map Prod.snd).sum

/-- The share of the households with a lower set point than `v`. -/
def householdsBelow (table : List (Rat × Rat)) (v : Rat) : Rat := ((table.filter fun p => p.1 < v).map Prod.snd).sum

/-- The household with the draw `u` gets the set point `v`: it is in the table, and `u` lies in an interval as long as the share of `v`, above the intervals of all lower set points. -/
def IsSetPoint (table : List (Rat × Rat)) (u v : Rat) : Prop :=
  v ∈ table.map Prod.fst ∧ householdsBelow table v ≤ u ∧ u < householdsBelow table v + householdsAt table v

/-- The state of a thermostat after the last of the temperatures: that after the last one outside of the band around the target (on below, off above), or the initial state if there is none. -/
def bandState (target band : Rat) (start : Bool) (Ts : List Rat) : Bool :=
  match Ts.reverse.find? (fun T => decide (T ≤ target - band) || decide (target + band ≤ T)) with
  | some T => decide (T ≤ target - band)
  | none => start

end Demod
