import Verif.Model.SurveySparse
import Verif.Spec.Survey
import Verif.Spec.SurveyMask
import Verif.Spec.SparseAct
import Mathlib.Data.Set.Card

/-! # The situations of the recorded households -/

namespace Demod

/-- The place at the end of the day of diary `p`: if it does not apply, the place where the previous diary starts. -/
def SurveyRaw.lastPlace (V : SurveyRaw) (p : Nat) : Int :=
  if V.final p = -2 then V.initial (if p = 0 then V.tables.rows.length - 1 else p - 1) else V.final p

/-- The person of diary `p` is at home in slot `t`: before any travel if the day started at home or at an unknown place; after the last one if the day ended at home, or at an unknown place and the last activities do not both have the lowest rating. -/
def SurveyRaw.AtHome (V : SurveyRaw) (p t : Nat) : Prop :=
  ((∀ j ≤ t, ¬ OnTheWay V.primary V.secondary p j) ∧ (V.initial p = 1 ∨ V.initial p = -1)) ∨
  ((∃ j ≤ t, OnTheWay V.primary V.secondary p j) ∧ (∀ j, t ≤ j → j < 144 → ¬ OnTheWay V.primary V.secondary p j) ∧
    (V.lastPlace p = 1 ∨ V.lastPlace p = -1 ∧ (NotLowest V.primary V.home p 143 ∨ NotLowest V.secondary V.home p 143)))

/-- Neither activity is a rest. -/
def SurveyRaw.Awake (V : SurveyRaw) (p t : Nat) : Prop := V.energy (V.primary.at' p t) ≠ some "not active".toList ∧ V.energy (V.secondary.at' p t) ≠ some "not active".toList

/-- One of the activities is for work or school. -/
def SurveyRaw.ForWork (V : SurveyRaw) (p t : Nat) : Prop := ∃ s ∈ [V.primary.at' p t, V.secondary.at' p t], (200 ≤ s ∧ s < 400) ∨ (900 ≤ s ∧ s ≤ 940)

/-- Diary `p` belongs to the subgroup and was written by a member of household `h` for its day `d`. -/
def SurveyRaw.Member (V : SurveyRaw) (a : SubgroupArgs) (h d p : Nat) : Prop := ∃ r, V.tables.rows[p]? = some r ∧ BelongsTo V.tables a r ∧ r.hh = h ∧ r.day = d

/-- Household `h` recorded its day `d`, in the subgroup. -/
def SurveyRaw.Recorded (V : SurveyRaw) (a : SubgroupArgs) (h d : Nat) : Prop := ∃ p, V.Member a h d p

/-- The numbers of members that are awake at home, out for work or school, and out for something else. -/
noncomputable def SurveyRaw.situation (V : SurveyRaw) (a : SubgroupArgs) (h d t : Nat) : Nat × Nat × Nat :=
  ({p | V.Member a h d p ∧ V.AtHome p t ∧ V.Awake p t}.ncard, {p | V.Member a h d p ∧ ¬ V.AtHome p t ∧ V.ForWork p t}.ncard, {p | V.Member a h d p ∧ ¬ V.AtHome p t ∧ ¬ V.ForWork p t}.ncard)

/-- The label that packs a situation. -/
def packed (x : Nat × Nat × Nat) : Nat := x.1 + 7 * x.2.1 + 49 * x.2.2

/-- A complete survey of days of 144 slots. -/
structure ValidSurvey (V : SurveyRaw) : Prop where
  nP : V.primary.nP = V.tables.rows.length ∧ V.secondary.nP = V.tables.rows.length
  nT : V.primary.nT = 144 ∧ V.secondary.nT = 144
  rated : Rated V.primary V.home ∧ Rated V.secondary V.home
  energy : ∀ p t, p < V.tables.rows.length → t < 144 → (∃ y, V.energy (V.primary.at' p t) = some y) ∧ ∃ y, V.energy (V.secondary.at' p t) = some y
  missing : PairedMissing V.tables
  persons : PersonsListed V.tables
  days : ∀ r ∈ V.tables.rows, 0 ≤ r.day

/-- The subgroup is usable: the arguments are accepted, there are diaries, at most six for each household and day. -/
structure UsableGroup (V : SurveyRaw) (a : SubgroupArgs) : Prop where
  accepted : AcceptedArgs a
  filters : a.full = true ∧ a.removeMissing = true ∧ a.identical = true
  some : ∃ h d, V.Recorded a h d
  six : ∀ h d, {p | V.Member a h d p}.ncard ≤ 6

/-- The subgroup asks for households of `n` residents and of the type `ty`; 0 is no condition. -/
def Asks (g : Subgroup) (n ty : Int) : Prop :=
  (g = [] ∧ n = 0 ∧ ty = 0) ∨ (g = [(kNResidents, .int n)] ∧ ty = 0) ∨ g = [(kNResidents, .int n), (kHouseholdType, .int ty)]

/-- The diaries of complete households of `n` residents and of the type `ty`. -/
def householdArgs (n ty : Int) : SubgroupArgs := { residents := .one n, type := ty }

/-- Those of the days like the day of a time; the quarter asked for is counted from 0, and 0 is no condition. -/
def dayArgs (n ty : Int) (split : DaySplit) (quarters : Bool) (t : Int) : SubgroupArgs :=
  { residents := .one n
    type := ty
    weekday := match split with
      | .none => .one 0
      | .weekEnds => if t / 86400000000 % 7 < 5 then .list [1, 2, 3, 4, 5] else .list [6, 7]
      | .seven => .one (t / 86400000000 % 7 + 1)
    quarter := if quarters then (((dateAt t).month : Int) - 1) / 3 else 0 }

/-- Somebody recorded a household all asleep at home at the start of a day. -/
def SurveyRaw.AllAsleepAtStart (V : SurveyRaw) (a : SubgroupArgs) : Prop := ∃ h d, V.Recorded a h d ∧ V.situation a h d 0 = (0, 0, 0)

/-- What the survey must have for the simulation of a subgroup: diaries for each class of days. -/
structure SurveyGroup (V : SurveyRaw) (g : Subgroup) (n ty r : Int) (split : DaySplit) (quarters : Bool) : Prop where
  asks : Asks g n ty
  residents : ResidentsOf g r
  given : UsableGroup V (householdArgs n ty)
  days : ∀ t, UsableGroup V (dayArgs n ty split quarters t) ∧ V.AllAsleepAtStart (dayArgs n ty split quarters t)

/-- A change of situation from slot `j` to the next one that a household of the survey recorded; at the start of a day on which nobody recorded the first situation, it is one of a household all asleep at home. -/
def SurveyMove (V : SurveyRaw) (a : SubgroupArgs) (j : Nat) (x y : Nat × Nat × Nat) : Prop :=
  ∃ h d, V.Recorded a h d ∧ V.situation a h d ((j + 1) % 144) = y ∧
    (V.situation a h d (j % 144) = x ∨ (j % 144 = 0 ∧ V.situation a h d 0 = (0, 0, 0) ∧ ∀ h' d', V.Recorded a h' d' → V.situation a h' d' 0 ≠ x))

end Demod
