import Verif.Model.SurveyInd
import Verif.Spec.SurveySparse
import Verif.Spec.Individuals

/-! # The recorded activities of the persons -/

namespace Demod

/-- The code `k` means the activity `a`; the code 0 stands for being away. -/
def Coded (dict : List (Int × Str)) (k : Int) (a : Str) : Prop := (k = 0 ∧ a = "away".toList) ∨ (k ≠ 0 ∧ (k, a) ∈ dict)

/-- Diary `p` belongs to the subgroup. -/
def SurveyRaw.Diary (V : SurveyRaw) (a : SubgroupArgs) (p : Nat) : Prop := ∃ r, V.tables.rows[p]? = some r ∧ BelongsTo V.tables a r

/-- Diary `p` has the activity `a` in slot `t`: somebody who is not at home is away, and at home only the main activity counts. -/
def SurveyRaw.Does (V : SurveyRaw) (dict : List (Int × Str)) (p t : Nat) (a : Str) : Prop :=
  (¬ V.AtHome p t ∧ a = "away".toList) ∨ (V.AtHome p t ∧ Coded dict (V.primary.at' p t) a)

/-- A dictionary for the survey: each code once, all the codes of the diaries, and no activity called '-'. -/
structure ActivityDict (V : SurveyRaw) (dict : List (Int × Str)) : Prop where
  codes : (dict.map (·.1)).Nodup
  known : ∀ p t, p < V.tables.rows.length → t < 144 → ∃ a, (V.primary.at' p t, a) ∈ dict
  noDash : ∀ q ∈ dict, q.2 ≠ "-".toList

/-- The diaries of a subgroup can be used: the arguments are accepted, there are diaries, and an activity that has several codes was done by somebody. -/
structure UsablePersons (V : SurveyRaw) (dict : List (Int × Str)) (a : SubgroupArgs) : Prop where
  accepted : AcceptedArgs a
  filters : a.full = true ∧ a.removeMissing = true ∧ a.identical = true
  some : ∃ p, V.Diary a p
  recorded : ∀ b k k', Coded dict k b → Coded dict k' b → k ≠ k' → ∃ p t, V.Diary a p ∧ t < 144 ∧ V.Does dict p t b

/-- The value of a number of a subgroup; 0 if it is not given. -/
def numberOf (g : Subgroup) (k : Str) : Int :=
  match g.at k with
  | some (.int v) => v
  | _ => 0

/-- The value of a number or list of a subgroup; 0 if it is not given. -/
def valuesOf (g : Subgroup) (k : Str) : OneOf :=
  match g.at k with
  | some (.int v) => .one v
  | some (.list vs) => .list vs
  | none => .one 0

/-- The diaries that the subgroup of a person asks for. -/
def personArgs (g : Subgroup) : SubgroupArgs :=
  { residents := valuesOf g kNResidents, weekday := valuesOf g kWeekday, type := numberOf g kHouseholdType, position := numberOf g kPosition, quarter := numberOf g kQuarter }

/-- A subgroup of persons: each key once, only known ones, with numbers; the residents and the days of the week may be lists. -/
structure PersonGroup (g : Subgroup) : Prop where
  keys : (g.map (·.1)).Nodup
  known : ∀ q ∈ g, q.1 ∈ [kNResidents, kWeekday, kHouseholdType, kPosition, kQuarter]
  numbers : ∀ q ∈ g, q.1 ≠ kNResidents → q.1 ≠ kWeekday → ∃ v, q.2 = .int v

/-- The diaries that are asked for on the day of a time: those of the person, of the same kind of day and of the same quarter. -/
def personDay (f : DayFlags) (a : SubgroupArgs) (t : Int) : SubgroupArgs :=
  { a with
    weekday :=
      if f.weekEndsDays then (if t / DAY % 7 < 5 then .list [1, 2, 3, 4, 5] else .list [6, 7])
      else if f.weekSatSun then (if t / DAY % 7 < 5 then .list [1, 2, 3, 4, 5] else .one (t / DAY % 7 + 1))
      else if f.sevenDays then .one (t / DAY % 7 + 1)
      else .one 0
    quarter := if f.quarters then (((dateAt t).month - 1) / 3 + 1 : Nat) else 0 }

/-- What the survey must have for the simulation of persons: usable diaries for each of them, and for each of them on each day. -/
structure SurveyPersons (V : SurveyRaw) (dict : List (Int × Str)) (f : DayFlags) (persons : List Subgroup) : Prop where
  group : ∀ p ∈ persons, PersonGroup p
  given : ∀ p ∈ persons, UsablePersons V dict (personArgs p)
  days : ∀ p ∈ persons, ∀ t, UsablePersons V dict (personDay f (personArgs p) t)

/-- The share of the diaries of the subgroup that start with the activity `b`. -/
noncomputable def SurveyRaw.startShare (V : SurveyRaw) (dict : List (Int × Str)) (a : SubgroupArgs) (b : Str) : Rat :=
  ({p | V.Diary a p ∧ V.Does dict p 0 b}.ncard : Rat) / ({p | V.Diary a p}.ncard : Rat)

/-- Among the diaries of the subgroup with the activity `b` in slot `before`, the share of those with `c` in slot `now`; if there are none, the activity is kept. -/
noncomputable def SurveyRaw.changeShare (V : SurveyRaw) (dict : List (Int × Str)) (a : SubgroupArgs) (before now : Nat) (b c : Str) : Rat :=
  if {p | V.Diary a p ∧ V.Does dict p before b}.ncard = 0 then (if c = b then 1 else 0)
  else ({p | V.Diary a p ∧ V.Does dict p before b ∧ V.Does dict p now c}.ncard : Rat) / ({p | V.Diary a p ∧ V.Does dict p before b}.ncard : Rat)

/-- The activity `c` is drawn with `u`: the shares of all the activities, in some order, are the lengths of consecutive intervals. -/
def DrawnBy (dict : List (Int × Str)) (share : Str → Rat) (u : Rat) (c : Str) : Prop :=
  ∃ (labels : List Str) (j : Nat), labels.Nodup ∧ (∀ b, b ∈ labels ↔ ∃ k, Coded dict k b) ∧ labels[j]? = some c ∧ Sampled (labels.map share) u j

/-- A step that begins in a slot of the day: the changes used are those into the slot, with day types and a start a multiple of 10 minutes after the refresh time; otherwise those into the next slot, and in the last slot of the day once more the
changes into this slot. In the first step of a simulation that starts at the refresh time they are those into the next slot. -/
def changesUsed (f : DayFlags) (refresh start t : Int) (first : Bool) : Nat × Nat :=
  let slot := ((t - refresh) % DAY / 600000000).toNat
  if first = true ∨ ¬ (f.requested = true ∧ (start - refresh) % 600000000 = 0) then (if slot = 143 then (142, 143) else (slot, slot + 1))
  else (if slot = 0 then (142, 143) else (slot - 1, slot))

end Demod
