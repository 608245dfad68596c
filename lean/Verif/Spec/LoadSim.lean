import Verif.Model.LoadSim
import Verif.Spec.CrestSim
import Verif.Spec.OccSim
import Verif.Spec.LightSim

/-! # Specifications for the whole load simulator -/

namespace Demod

variable {C H Opt : Type}

/-- The elements at positions 0, 10, 20, … -/
def everyTen {α : Type} (l : List α) : List α := (l.zipIdx.filter fun q => decide (q.2 % 10 = 0)).map fun q => q.1

/-- All arrays have an entry per household. -/
structure HeatIn.Sized (i : HeatIn Opt) (n : Nat) : Prop where
  dhw : i.dhw.length = n
  occupancy : i.occupancy.length = n
  light : i.light.length = n
  appliances : i.appliances.length = n

/-- What is needed for the simulation of `n` households, `counts` in each of the subgroups, besides the activities and the heating: data for the appliances and the lights that cover up to six active occupants. -/
structure LoadCore (D : LoadData C H Opt) (n : Nat) (counts : List Nat) (start : Int) (args : LoadArgs C) : Prop where
  inhabited : 0 < n
  population : samplePopulation n D.pdf .realPopulation = .ok counts
  groups : counts.length = D.groups.length
  appliances : OccSetup D.apps D.profiles D.switchedOn D.full D.refresh D.dataStep D.groups counts none start { args.appliances with initial := none } 6
  loads : OccProfilesOk D.apps D.switchedOn D.full args.appliances
  appliancesInit : ∀ k h a, 0 ≤ (args.appliancesInit k).u h a
  bulbs : BulbsOk D.lights "randn" n args.light
  lights : LightDataOk D.lights.lighting
  effective : 6 < D.lights.lighting.effective.length

/-- Data for the four-states activity simulator: there are no sparse matrices; a valid workbook for the numbers of residents, both kinds of population being the same. -/
structure LoadBase (D : LoadData C H Opt) (n : Nat) (counts : List Nat) (start : Int) (args : LoadArgs C) : Prop extends LoadCore D n counts start args where
  noSparse : ∀ g ∈ D.groups, D.sparse g none = .error .notImplementedError
  residents : ∀ g ∈ D.groups, ∃ r : Nat, g.at kNResidents = some (.int r) ∧ 1 ≤ r ∧ r ≤ 6 ∧ BookHas D.book r
  same : D.groupsR = D.groups ∧ D.pdfR = D.pdf
  start10 : start % 600000000 = 0
  refresh : D.refresh = 0
  activity : Draws n args.activity
  activityInit : ∀ k, Draws n (args.activityInit k)

/-- A heating simulator whose states, `good` ones, accept an entry per household, for the optional inputs `optOk`. -/
structure HeatOk (D : LoadData C H Opt) (n : Nat) (good : H → Prop) (optOk : Opt → Prop) : Prop where
  heatingInit : ∀ t, ∃ x, D.heatingInit n t = .ok x ∧ good x
  heating : ∀ (x : H) (i : HeatIn Opt), good x → i.Sized n → optOk i.opt → ∃ x', D.heatingStep x i = .ok x' ∧ good x'
  heatingPower : ∀ x, good x → ∃ p, D.heatingPower x = .ok p ∧ p.length = n

/-- Both. -/
structure LoadSetup (D : LoadData C H Opt) (n : Nat) (counts : List Nat) (start : Int) (args : LoadArgs C) (good : H → Prop) (optOk : Opt → Prop) : Prop extends LoadBase D n counts start args, HeatOk D n good optOk

/-- The inputs and draws of a step: the weather is given if it is not simulated. -/
structure LoadInOk (D : LoadData C H Opt) (n : Nat) (climate : Bool) (optOk : Opt → Prop) (i : LoadStepIn Opt) : Prop where
  weather : climate = true ∨ i.outside.isSome ∧ i.irradiance.isSome
  opt : optOk i.opt
  activity : Draws n i.activity
  appliances : ∀ h a, 0 ≤ i.appliances.u h a
  interval : ∀ j, i.light.interval j < 1
  place : ∀ j, 0 ≤ i.light.place j ∧ i.light.place j < 1

end Demod
