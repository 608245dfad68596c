import Verif.Model.Individuals
import Verif.Spec.Activity
import Verif.Spec.Markov
import Verif.Spec.Utils

/-! # Valid data for the simulator of individuals -/

namespace Demod
variable {L : Type}

/-- What is loaded for a subgroup: matrices and an initial distribution over labels, which are those of `labels` in some order. -/
def ValidLoad (labels : List L) (r : Tpms × List L × List Rat) : Prop :=
  r.2.1.Nodup ∧ (∀ a, a ∈ r.2.1 ↔ a ∈ labels) ∧ r.1.rows = r.2.1.length ∧ r.1.cols = r.2.1.length ∧ IsTpms r.2.1.length r.1.mats ∧ IsDist r.2.2 ∧ r.2.2.length = r.2.1.length

/-- Valid data are loaded for the persons of the subgroups, and for these persons with the attributes of any day. -/
def ValidData (load : TpmLoader L) (f : DayFlags) (labels : List L) (persons : List Subgroup) : Prop :=
  ∃ asked : Subgroup → Prop, (∀ p ∈ persons, asked p) ∧ (∀ g t g', asked g → addTime g t f.weekEndsDays f.weekSatSun f.sevenDays f.quarters = .ok g' → asked g') ∧
    ∀ g, asked g → ∃ r, load g = .ok r ∧ ValidLoad labels r

/-- At most one way to distinguish the days is requested. -/
def DayFlags.Valid (f : DayFlags) : Prop := (f.weekEndsDays && f.weekSatSun || f.weekEndsDays && f.sevenDays || f.weekSatSun && f.sevenDays) = false

/-- Some distinction of the days is requested: week-ends, Saturdays and Sundays, the seven days or quarters. -/
def DayFlags.requested (f : DayFlags) : Bool := decide (f.weekEndsDays = true ∨ f.weekSatSun = true ∨ f.sevenDays = true ∨ f.quarters = true)

/-- Subgroups of households (given with their numbers of households) and the persons of a household of each: there are households of each subgroup, and as many residents as persons. -/
def ValidGroups (groups : List (Subgroup × Nat)) (persons : List (List Subgroup)) : Prop :=
  groups ≠ [] ∧ persons.length = groups.length ∧
    ∀ (i : Nat) g ps, groups[i]? = some g → persons[i]? = some ps → toPersons g.1 = .ok ps ∧ ps ≠ [] ∧ 0 < g.2 ∧ g.1.at kNResidents = some (.int ps.length)

/-- The persons of each household. -/
def allHouseholds (groups : List (Subgroup × Nat)) (persons : List (List Subgroup)) : List (List Subgroup) := households (persons.zip (groups.map fun g => g.2))

/-- The distinct persons, in order of first occurrence. -/
def personTypes {P : Type} [DecidableEq P] (persons : List (List P)) : List P := persons.flatten.eraseDups

/-- How many times `p` occurs. -/
def timesIn {P : Type} [DecidableEq P] (p : P) (l : List P) : Nat := l.count p

/-- One draw in [0, 1) for each person of each type. -/
def DrawsForTypes (groups : List (Subgroup × Nat)) (persons : List (List Subgroup)) (us : Nat → List Rat) : Prop :=
  ∀ (i : Nat) p, (personTypes persons)[i]? = some p → Draws (timesIn p (allHouseholds groups persons).flatten) (us i)

end Demod
