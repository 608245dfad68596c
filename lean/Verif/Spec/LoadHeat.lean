import Verif.Model.LoadHeat
import Verif.Spec.LoadSim
import Verif.Spec.HeatSim

/-! # Specifications for the load simulator with its heating -/

namespace Demod

/-- The optional inputs have one entry per household, and the targets are an array or a dictionary. -/
structure HeatOpt.Sized (n : Nat) (o : HeatOpt) : Prop where
  target : match o.target with
    | .none => True
    | .array v => v.length = n
    | .dict w h e => (∀ v ∈ w, v.length = n) ∧ (∀ v ∈ h, v.length = n) ∧ (∀ v ∈ e, v.length = n)
    | .other => False
  extHeat : match o.extHeat with
    | .array v => v.length = n
    | .dict w h => (∀ v ∈ w, v.length = n) ∧ (∀ v ∈ h, v.length = n)
    | _ => True
  extDhw : ∀ v ∈ o.extDhw, v.length = n
  extSpace : ∀ v ∈ o.extSpace, v.length = n
  extCylinder : ∀ v ∈ o.extCylinder, v.length = n

end Demod
