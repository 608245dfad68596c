import Verif.Spec.LoadSim
import Verif.Spec.SparseAct

/-! # Specifications for the load simulator with transit-states activities -/

namespace Demod

variable {C H Opt : Type}

/-- Data for the transit-states activity simulator: valid sparse matrices for the week days and the week-end days of all subgroups that have households (`labels0`, `pdf` those of the starting states, `days` those of the classes of days), and never more persons out of the house than residents. -/
structure LoadSparse (D : LoadData C H Opt) (n : Nat) (counts : List Nat) (start : Int) (args : LoadArgs C) (labels0 : Subgroup → List Nat) (acts : Subgroup → List Str) (pdf : Subgroup → List Rat) (days : Subgroup → DayData) (r : Subgroup → Int) : Prop
    extends LoadCore D n counts start args where
  fuel : 2 ≤ D.fuel
  data : ∀ (k : Nat) g c, D.groups[k]? = some g → counts[k]? = some c → 0 < c → SparseData D.sparse g (labels0 g) (acts g) (pdf g) .weekEnds false (days g) ∧ ResidentsOf g (r g)
  home : ∀ (k : Nat) g c, D.groups[k]? = some g → counts[k]? = some c → 0 < c → ∀ t l w o, l ∈ (days g (dayOf .weekEnds false t)).2 → DoingCount (acts g) "HWH".toList l w → DoingCount (acts g) "HOH".toList l o → (w : Int) + o ≤ r g
  activity : Draws n args.activity
  activityInit : ∀ k, PosDraws n (args.activityInit k)

end Demod
