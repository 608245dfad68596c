import Verif.Model.Arma
import Mathlib.Algebra.BigOperators.Group.Finset.Basic

/-!
# ARMA(1,1)
-/

namespace Demod

/-- `x` is an ARMA(1,1) process with the coefficients `a` and `m` for the noise `e`: each value is `a` times the one
before, plus the noise, plus `m` times the noise before; it starts at 0. -/
def IsArma (a m : Rat) (e x : Nat → Rat) : Prop :=
  x 0 = 0 ∧ ∀ n, x (n + 1) = a * x n + e (n + 1) + m * e n

/-- How much day `n` is warmer than the season. -/
def anomaly (d : ArmaDic) (season z : Nat → Rat) (n : Nat) : Rat :=
  if n = 0 then 0 else (armaRun d season z n).tdArma - (d.mean + d.std * season n)

end Demod
