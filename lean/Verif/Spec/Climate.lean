import Verif.Model.Climate

/-!
# What historical climate data is
-/

namespace Demod

/-- Measurements of `v` from `d0`, one every `step`, `N` of them: the value `v k` was measured at `d0 + k * step`. -/
def grid {V : Type} (d0 step : Int) (v : Nat → V) (N : Nat) : History V := (List.range N).map fun (k : Nat) => (d0 + k * step, v k)

end Demod
