import Verif.Model.Utils

/-!
# The loader of the German statistical office (`demod/datasets/DESTATIS/loader.py`)

The table of the equipment is an argument: the column of the types of demod and the column of a group of households, in percent. NaN, an empty cell and `-` are `none`.
-/

namespace Demod

/-- `d[k] = v`: an existing key keeps its place. (`DESTATIS/loader.py:187-194`) -/
def dictSet {α : Type} (d : List (Str × α)) (k : Str) (v : α) : List (Str × α) :=
  if (lookupA d k).isSome then d.map fun q => if q.1 = k then (k, v) else q else d ++ [(k, v)]

/-- `d.pop(k)`, `KeyError` without this key. (`DESTATIS/loader.py:193-193`) -/
def dictPop {α : Type} (d : List (Str × α)) (k : Str) : Except PyErr (α × List (Str × α)) :=
  match lookupA d k with
  | some v => .ok (v, d.filter fun q => decide (q.1 ≠ k))
  | none => .error .keyError

/-- `assign_ownership_from_prob1_and_number`, `appliances.py:162-211`, for values of an array of floats: a NaN of this array is not the object `np.nan`, its comparisons are
false and `min(nan, 1.)` is NaN. -/
def assignCell (prob number : Option Rat) : Except PyErr (List (Option Rat)) :=
  match prob, number with
  | some p, some n => (assignOwnership p (some n) true).map fun l => l.map some
  | some p, none => if p < 0 ∨ p > 1 then .error .valueError else .ok [some p, none]
  | none, some n => if n < 0 then .error .valueError else .ok [none, none]
  | none, none => .ok [none, none]

/-- One row of the loop, `DESTATIS/loader.py:176-194`. -/
def destatisStep (column : List (Option Rat)) (d : List (Str × Rat)) (it : Nat) : Option Str → Except PyErr (List (Str × Rat))
  | none => .ok d
  | some t => do
    let number ← pyGet column it
    let prob ← pyGet column (it + 51)
    let t := t.filter fun c => decide (c ≠ ' ')
    let probs ← assignCell (prob.map fun x => x / 100) (number.map fun x => x / 100)
    let d := probs.zipIdx.foldl (fun d q => dictSet d (t ++ '_' :: decimal (q.2 + 1)) (q.1.getD 0)) d
    let (p, d) ← dictPop d (t ++ '_' :: decimal 1)
    .ok (dictSet d t p)

/-- The loop over the rows from `it` on, which ends at the row 56. (`DESTATIS/loader.py:172-194`) -/
def destatisLoop (column : List (Option Rat)) : List (Str × Rat) → Nat → List (Option Str) → Except PyErr (List (Str × Rat))
  | d, _, [] => .ok d
  | d, it, t :: ts =>
    if it = 51 + 5 then .ok d
    else do
      let d ← destatisStep column d it t
      destatisLoop column d (it + 1) ts

/-- The key `'household_revenue'`. (`DESTATIS/loader.py:198-210`) -/
def kRevenue : Str := "household_revenue".toList
/-- The key `'year'`. (`DESTATIS/loader.py:198-210`) -/
def kYear : Str := "year".toList
/-- The key `'gender'`. (`DESTATIS/loader.py:198-210`) -/
def kGender : Str := "gender".toList

/-- The truth value of an argument. (`DESTATIS/loader.py:281-310`) -/
def truthy : Option SubVal → Bool
  | none => false
  | some (.int n) => decide (n ≠ 0)
  | some (.list l) => decide (l ≠ [])

/-- The columns by revenue, `DESTATIS/loader.py:288-308`. -/
def revenueColumn (r : Int) : Nat :=
  27 + (if r < 900 then 0 else if r < 1300 then 1 else if r < 1500 then 2 else if r < 2000 then 3 else if r < 2600 then 4 else if r < 3600 then 5 else if r < 5000 then 6 else 7)

/-- `_get_column_appliance_subgroup`, `DESTATIS/loader.py:198-323`, for values that are integers or lists of integers. Further keys are not used. -/
def destatisColumn (g : Subgroup) : Except PyErr Nat :=
  let n := lookupA g kNResidents
  let ty := lookupA g kHouseholdType
  let gender := lookupA g kGender
  if ty = some (.int 1) then
    if gender = none then .ok 47
    else if gender = some (.int 1) then .ok 48
    else if gender = some (.int 2) then .ok 49
    else .error .valueError
  else if ty = some (.int 2) then .ok 52
  else if ty = some (.int 3) ∧ n = some (.int 2) then .ok 58
  else if ty = some (.int 3) ∧ n = some (.int 3) then .ok 59
  else if ty = some (.int 3) ∧ n = some (.int 4) then .ok 59
  else if ty = some (.int 4) ∧ n = some (.int 3) then .ok 61
  else if ty = some (.int 4) ∧ n = some (.int 4) then .ok 62
  else if ty = some (.int 4) ∧ n = some (.int 5) then .ok 63
  else if truthy n then
    match n with
    | some (.int n) => if n > 0 ∧ n < 6 then .ok (12 + n.toNat) else .error .assertionError
    | _ => .error .typeError
  else if truthy (lookupA g kRevenue) then
    match lookupA g kRevenue with
    | some (.int r) => if r ≥ 0 then .ok (revenueColumn r) else .error .assertionError
    | _ => .error .typeError
  else if truthy (lookupA g kYear) then
    match lookupA g kYear with
    | some (.int y) => if y = 2008 then .ok 2 else if y = 2013 then .ok 3 else if y = 2018 then .ok 4 else .error .valueError
    | _ => .error .valueError
  else .error .valueError

/-- `_parse_appliance_ownership_dict`, `DESTATIS/loader.py:126-196`, for the types and the columns of the table. The download of the file is not modelled. -/
def destatisOwnership (types : List (Option Str)) (columns : Nat → List (Option Rat)) (g : Subgroup) : Except PyErr (List (Str × Rat)) := do
  let c ← destatisColumn (removeTime g)
  destatisLoop (columns c) [] 0 types

/-- A subgroup with a number of residents and a household type. (`DESTATIS/loader.py:87-113`) -/
def residentsType (n ty : Int) : Subgroup := [(kNResidents, .int n), (kHouseholdType, .int ty)]

/-- `_parse_population_subgroups`, `DESTATIS/loader.py:39-124`: subgroups, probabilities, number of households. -/
def destatisPopulation (name : Str) : Except PyErr (List Subgroup × List Rat × Nat) :=
  let residents := [1, 2, 3, 4, 5].map fun n => [(kNResidents, SubVal.int n)]
  let y2019 : List Subgroup × List Rat × Nat := (residents, [423 / 10, 332 / 10, 119 / 10, 91 / 10, 35 / 10].map fun x => x / 100, 41506000)
  let numbers : List Rat := [17067 / 1000, 11850 / 1000, 1007 / 1000, 408 / 1000, 109 / 1000, 2553 / 1000, 2370 / 1000, 801 / 1000]
  let types : List Subgroup × List Rat × Nat :=
    ([residentsType 1 1, residentsType 2 2, residentsType 2 3, residentsType 3 3, residentsType 4 3, residentsType 3 4, residentsType 4 4, residentsType 5 4],
      numbers.map fun x => x / numbers.sum, 41506000)
  if name = "resident_number".toList ∨ name = "crest".toList then .ok y2019
  else if name = "resident_number_2013".toList then .ok (residents, [4054 / 100, 3443 / 100, 1251 / 100, 921 / 100, 331 / 100].map fun x => x / 100, 39933000)
  else if name = "resident_number_2019".toList then .ok y2019
  else if name = "household_types".toList then .ok types
  else if name = "household_types_2019".toList then .ok types
  else .error .notImplementedError

end Demod
