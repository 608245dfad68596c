import Verif.Model.SurveyMask

/-! # Which diaries belong to a subgroup -/

namespace Demod

/-- The number `v` is no condition, or `x` has this value. -/
def Meets (v x : Int) : Prop := v = 0 ∨ x = v

/-- `x` has the requested value or one of them. -/
def MeetsOne : OneOf → Int → Prop
  | .one v, x => Meets v x
  | .list vs, x => vs = [] ∨ ∃ v ∈ vs, Meets v x

/-- `x` is in the interval, without its end. -/
def Inside {α : Type} [LE α] [LT α] : Option (α × α) → α → Prop
  | none, _ => True
  | some (lo, hi), x => lo ≤ x ∧ x < hi

/-- All the members of the household wrote diaries. -/
def Complete (s : SurveyTables) (r : DiaryRow) : Prop := r.hh ∈ s.hhIds ∧ (s.hh r.hh).size = (s.hh r.hh).recorded

/-- No member of the household misses the diary of this day. -/
def NobodyMissing (s : SurveyTables) (r : DiaryRow) : Prop := ∀ q ∈ s.rows, q.missing ≠ 0 → q.hh = r.hh → q.missing ≠ r.day

/-- The members of the household wrote their diaries on the same days. -/
def SameDays (s : SurveyTables) (r : DiaryRow) : Prop := r.same = 1 ∨ (s.hh r.hh).size = 1

/-- The work of the household. -/
def Works (s : SurveyTables) (work : Option Str) (r : DiaryRow) : Prop :=
  ∀ w, work = some w → w ≠ [] →
    (w = "1_fulltime".toList → (s.hh r.hh).workers = 2) ∧ (w = "1_halftime".toList → (s.hh r.hh).workers = 3) ∧ (w = "2_fulltime".toList → (s.hh r.hh).workers = 4) ∧
    (w = "1_fulltime_1_halftime".toList → (s.hh r.hh).workers = 5) ∧ (w = "3_fulltime".toList → (s.hh r.hh).workers = 6) ∧ (w = "other".toList → (s.hh r.hh).workers = 7) ∧
    (w = "1_retired".toList → (s.hh r.hh).size = 1 ∧ r.life = 8) ∧
    (w = "2_retired".toList → r.hh ∈ s.hhIds ∧ (s.hh r.hh).size = 2 ∧ ∃ rest, (s.persons.filter fun q => decide (q.1 = r.hh)).map (·.2) = 8 :: 8 :: rest)

/-- A diary belongs to the subgroup. -/
structure BelongsTo (s : SurveyTables) (a : SubgroupArgs) (r : DiaryRow) : Prop where
  full : a.full = true → Complete s r
  missing : a.removeMissing = true → NobodyMissing s r
  identical : a.identical = true → SameDays s r
  quarter : Meets a.quarter r.quarter
  weekday : MeetsOne a.weekday r.weekday
  residents : MeetsOne a.residents (s.hh r.hh).size
  work : Works s a.work r
  type : Meets a.type (s.hh r.hh).type
  life : MeetsOne a.life r.life
  salary : Meets a.salary r.salary
  revenue : Meets a.revenue (s.hh r.hh).revenue
  position : Meets a.position r.position
  age : Inside a.age r.age
  meanAge : Inside a.meanAge (s.hh r.hh).meanAge
  birth : Meets a.birth r.birth
  gender : Meets a.gender r.gender

/-- A number that is accepted. -/
def Accepted (v hi : Int) : Prop := v = 0 ∨ 0 < v ∧ v ≤ hi

/-- A number or list that is accepted. -/
def AcceptedOne : OneOf → Int → Prop
  | .one v, hi => Accepted v hi
  | .list vs, hi => ∀ v ∈ vs, Accepted v hi

/-- An interval that is accepted. -/
def AcceptedRange {α : Type} [LE α] : Option (α × α) → Prop
  | none => True
  | some (lo, hi) => lo ≤ hi

/-- The arguments that are accepted. -/
structure AcceptedArgs (a : SubgroupArgs) : Prop where
  quarter : Accepted a.quarter 4
  weekday : AcceptedOne a.weekday 7
  residents : AcceptedOne a.residents 6
  work : ∀ w, a.work = some w → w ∈ ["".toList, "1_fulltime".toList, "1_halftime".toList, "2_fulltime".toList, "1_fulltime_1_halftime".toList, "3_fulltime".toList, "other".toList, "1_retired".toList, "2_retired".toList]
  type : Accepted a.type 5
  life : AcceptedOne a.life 11
  salary : Accepted a.salary 5
  revenue : Accepted a.revenue 5
  position : Accepted a.position 9
  age : AcceptedRange a.age
  meanAge : AcceptedRange a.meanAge
  birth : Accepted a.birth 2
  gender : Accepted a.gender 2

/-- The persons of the households of two are in the table. -/
def PersonsListed (s : SurveyTables) : Prop := ∀ h ∈ s.hhIds, (s.hh h).size = 2 → 2 ≤ (s.persons.filter fun q => decide (q.1 = h)).length

/-- The two diaries of somebody who misses a day follow each other. -/
def PairedMissing (s : SurveyTables) : Prop := ∃ l : List (Nat × Int), (s.rows.filter fun q => decide (q.missing ≠ 0)).map (fun q => (q.hh, q.missing)) = l.flatMap fun x => [x, x]

end Demod
