import Verif.Model.Utils

/-!
# The diaries of a subgroup (`demod/datasets/GermanTOU/parser.py:66-241`)

A row has the columns of a diary (`df_akt`) and of the person who wrote it (`df_pers`); the columns of its household (`df_hh`) are looked up by the number of the household.
-/

namespace Demod

/-- A diary: columns `id_hhx`, `tagnr`, `fehl_tag`, `selbtag`, `quartal`, `wtagfei` and those of the person: `pb3`, `pe23x`, `ha6x`, `alterx`, `ha8x`, `ha3` (`parser.py:130-236`). -/
structure DiaryRow where
  hh : Nat
  day : Int
  missing : Int
  same : Int
  quarter : Int
  weekday : Int
  life : Int
  salary : Int
  position : Int
  age : Int
  birth : Int
  gender : Int
  deriving DecidableEq, Repr

/-- A household: `ha1x`, `df_hh_max_recorded_persons`, `anz_erw`, `hhtyp`, `hd15x`, `df_hh_mean_age` (`parser.py:58-61`). -/
structure HouseholdRow where
  size : Int
  recorded : Int
  workers : Int
  type : Int
  revenue : Int
  meanAge : Rat
  deriving DecidableEq, Repr

/-- The tables of the survey (`parser.py:22-25`); `persons` has the household and `pb3` of each person. -/
structure SurveyTables where
  rows : List DiaryRow
  hhIds : List Nat
  hh : Nat → HouseholdRow
  persons : List (Nat × Int)

/-- An argument that is a number or a list (`parser.py:149,156,198`); `None` is `one 0`, which is false as well. -/
inductive OneOf where
  | one (v : Int)
  | list (vs : List Int)
  deriving DecidableEq, Repr

/-- The arguments of `get_mask_subgroup`, `parser.py:66-76`; `None` is 0 for the numbers. A `dict` of life situations is not modelled, `is_travelling` has no effect. -/
structure SubgroupArgs where
  full : Bool := true
  removeMissing : Bool := true
  identical : Bool := true
  quarter : Int := 0
  weekday : OneOf := .one 0
  residents : OneOf := .one 0
  type : Int := 0
  salary : Int := 0
  revenue : Int := 0
  work : Option Str := none
  life : OneOf := .one 0
  meanAge : Option (Rat × Rat) := none
  age : Option (Int × Int) := none
  birth : Int := 0
  gender : Int := 0
  position : Int := 0

/-- `xs[::2]` (`parser.py:135-136`). -/
def everySecond {α : Type} : List α → List α
  | [] => []
  | [a] => [a]
  | a :: _ :: l => a :: everySecond l

/-- The three filters, `parser.py:128-143`. -/
def keepRow (s : SurveyTables) (full removeMissing identical : Bool) (r : DiaryRow) : Bool :=
  (!full || decide (r.hh ∈ s.hhIds.filter fun h => decide ((s.hh h).size - (s.hh h).recorded = 0))) &&
  (!removeMissing || !((everySecond (s.rows.filter fun q => decide (q.missing ≠ 0))).any fun q => decide (r.hh = q.hh) && decide (r.day = q.missing))) &&
  (!identical || decide (r.same = 1) || decide ((s.hh r.hh).size = 1))

/-- A numeric condition, for instance `parser.py:145-147`: 0 is no condition. -/
def scalarCond (v hi : Int) (attr : DiaryRow → Int) : Except PyErr (DiaryRow → Bool) :=
  if v = 0 then .ok fun _ => true
  else if ¬ (v ≤ hi ∧ v > 0) then .error .assertionError
  else .ok fun r => decide (attr r = v)

/-- A number or a list, for instance `parser.py:149-154`: the recursive calls have the default filters. -/
def oneOfCond (s : SurveyTables) (a : OneOf) (hi : Int) (attr : DiaryRow → Int) : Except PyErr (DiaryRow → Bool) :=
  match a with
  | .one v => scalarCond v hi attr
  | .list [] => .ok fun _ => true
  | .list vs => do
    let fs ← vs.mapM fun v => scalarCond v hi attr
    .ok fun r => fs.any fun f => keepRow s true true true r && f r

/-- The test of a household of two, `parser.py:186-188`: `and` looks at the second person only if the first is retired. -/
def bothRetired (jobs : List Int) : Except PyErr Bool := do
  let first ← pyGet jobs 0
  if first = 8 then do
    let second ← pyGet jobs 1
    .ok (decide (second = 8))
  else .ok false

/-- The households of two retired persons, `parser.py:178-189`. -/
def twoRetired (s : SurveyTables) : Except PyErr (List Nat) := do
  let ids := s.hhIds.filter fun h => decide ((s.hh h).size = 2)
  let tests ← ids.mapM fun h => bothRetired ((s.persons.filter fun q => decide (q.1 = h)).map (·.2))
  .ok ((ids.zip tests).filterMap fun q => if q.2 then some q.1 else none)

/-- The codes of `hh_work_type`, `parser.py:164-175`. -/
def workCode : List (Str × Int) := [("1_fulltime".toList, 2), ("1_halftime".toList, 3), ("2_fulltime".toList, 4), ("1_fulltime_1_halftime".toList, 5), ("3_fulltime".toList, 6), ("other".toList, 7)]

/-- `hh_work_type`, `parser.py:163-193`. The empty string is no condition. -/
def workCond (s : SurveyTables) (work : Option Str) : Except PyErr (DiaryRow → Bool) :=
  match work with
  | none => .ok fun _ => true
  | some w =>
    if w = [] then .ok fun _ => true
    else match (workCode.find? fun q => decide (q.1 = w)).map (·.2) with
    | some c => .ok fun r => decide ((s.hh r.hh).workers = c)
    | none =>
      if w = "1_retired".toList then .ok fun r => keepRow s true true true r && decide ((s.hh r.hh).size = 1) && decide (r.life = 8)
      else if w = "2_retired".toList then do
        let ids ← twoRetired s
        .ok fun r => decide (r.hh ∈ ids)
      else .error .valueError

/-- An interval, `parser.py:218-231`. -/
def rangeCond {α : Type} [LE α] [LT α] [DecidableLE α] [DecidableLT α] (a : Option (α × α)) (attr : DiaryRow → α) : Except PyErr (DiaryRow → Bool) :=
  match a with
  | none => .ok fun _ => true
  | some (lo, hi) => if ¬ lo ≤ hi then .error .assertionError else .ok fun r => decide (lo ≤ attr r) && decide (attr r < hi)

/-- `get_mask_subgroup`, `parser.py:66-241`. -/
def maskSubgroup (s : SurveyTables) (a : SubgroupArgs) : Except PyErr (List Bool) := do
  let quarter ← scalarCond a.quarter 4 (·.quarter)
  let weekday ← oneOfCond s a.weekday 7 (·.weekday)
  let residents ← oneOfCond s a.residents 6 fun r => (s.hh r.hh).size
  let work ← workCond s a.work
  let type ← scalarCond a.type 5 fun r => (s.hh r.hh).type
  let life ← oneOfCond s a.life 11 (·.life)
  let salary ← scalarCond a.salary 5 (·.salary)
  let revenue ← scalarCond a.revenue 5 fun r => (s.hh r.hh).revenue
  let position ← scalarCond a.position 9 (·.position)
  let age ← rangeCond a.age (·.age)
  let meanAge ← rangeCond a.meanAge fun r => (s.hh r.hh).meanAge
  let birth ← scalarCond a.birth 2 (·.birth)
  let gender ← scalarCond a.gender 2 (·.gender)
  .ok (s.rows.map fun r => keepRow s a.full a.removeMissing a.identical r && [quarter, weekday, residents, work, type, life, salary, revenue, position, age, meanAge, birth, gender].all fun f => f r)

end Demod
