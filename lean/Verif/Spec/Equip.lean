import Verif.Model.Equip

/-! # Specifications for the equipment of the households -/

namespace Demod

/-- With `ns` households in the subgroups, in order, household `h` is one of subgroup `k`. -/
def InSubgroup (ns : List Nat) (h k : Nat) : Prop := (ns.take k).sum ≤ h ∧ h < (ns.take (k + 1)).sum

/-- An appliance that runs all the time. -/
def AppInfo.AlwaysOn (a : AppInfo) : Prop := a.activity = "level".toList ∨ a.activity = "constant".toList

/-- All appliances of a type are always on, or none. -/
def Separated (apps : List AppInfo) : Prop := ∀ a ∈ apps, ∀ b ∈ apps, a.type = b.type → (a.AlwaysOn ↔ b.AlwaysOn)

/-- The mean of a distribution over `0, 1, 2, …`. -/
def meanOf (pdf : List Rat) : Rat := ((List.range pdf.length).map fun (k : Nat) => (k : Rat) * pdf.getD k 0).sum

end Demod
