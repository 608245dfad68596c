import Verif.Model.SemiIndividuals
import Verif.Spec.Individuals

/-! # Valid data for the simulator of individuals with durations -/

namespace Demod
variable {L : Type}

/-- What is loaded for a subgroup: matrices, durations, and initial distributions of the states and durations, over labels which are those of `labels` in some order. -/
structure ValidSemi (labels : List L) (r : SemiData L) : Prop where
  nodup : r.labels.Nodup
  same : ∀ a, a ∈ r.labels ↔ a ∈ labels
  rows : r.tpm.rows = r.labels.length
  cols : r.tpm.cols = r.labels.length
  tpms : IsTpms r.labels.length r.tpm.mats
  initial : IsDist r.initial ∧ r.initial.length = r.labels.length
  durations : IsDurations r.labels.length r.durations
  starts : r.initialDurations.length = r.labels.length ∧ ∀ row ∈ r.initialDurations, IsDist row

/-- Valid data are loaded for the persons of the subgroups, and for these persons with the attributes of any day. -/
def ValidSemiData (load : SemiLoader L) (f : DayFlags) (labels : List L) (persons : List Subgroup) : Prop :=
  ∃ asked : Subgroup → Prop, (∀ p ∈ persons, asked p) ∧ (∀ g t g', asked g → addTime g t f.weekEndsDays f.weekSatSun f.sevenDays f.quarters = .ok g' → asked g') ∧
    ∀ g, asked g → ∃ r, load g = .ok r ∧ ValidSemi labels r

/-- The draws of a step: two streams for each type of persons. -/
def StreamsForTypes (us : Nat → (Nat → Rat) × (Nat → Rat)) : Prop := ∀ i, DrawStream (us i).1 ∧ DrawStream (us i).2

/-- The current activity of person `h` of type `i`. -/
def activityOf (s : SemiIndividuals L) (i h : Nat) : Option L :=
  match s.sims[i]? with
  | none => none
  | some m => match m.chain.states[h]? with
    | none => none
    | some x => m.chain.labels[x]?

end Demod
