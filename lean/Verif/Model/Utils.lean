import Verif.Model.Time
import Mathlib.Algebra.Order.Ring.Rat
import Mathlib.Order.Defs.LinearOrder
import Mathlib.Data.List.Sort

/-!
# Utilities (`demod/simulators/util.py`, `demod/utils/appliances.py`, `demod/utils/subgroup_handling.py`,
`demod/utils/countries.py`)

A string is a list of characters. A python `dict` whose keys matter is an association list with distinct
keys, in insertion order. Warnings are not modelled.
-/

namespace Demod

/-- A python string. (`subgroup_handling.py:74-97`) -/
abbrev Str := List Char

/-- `s.split(c)`: the maximal pieces without `c`. (`appliances.py:31-46`) -/
def splitAt (c : Char) : Str → List Str
  | [] => [[]]
  | a :: s =>
    if a = c then [] :: splitAt c s
    else match splitAt c s with
      | [] => [[a]]
      | p :: ps => (a :: p) :: ps

/-- `sep.join(parts)` (`appliances.py:31-46`) -/
def joinWith (sep : Str) : List Str → Str
  | [] => []
  | [p] => p
  | p :: q :: ps => p ++ sep ++ joinWith sep (q :: ps)

/-- The digit characters. (`subgroup_handling.py:74-97`) -/
def digitChar (d : Nat) : Char := ['0', '1', '2', '3', '4', '5', '6', '7', '8', '9'].getD d '0'

/-- Decimal digits with fuel. (`subgroup_handling.py:74-97`) -/
def decimalAux : Nat → Nat → Str
  | 0, _ => []
  | f + 1, n => if n < 10 then [digitChar n] else decimalAux f (n / 10) ++ [digitChar (n % 10)]

/-- `str(n)` for a natural number. (`subgroup_handling.py:74-97`) -/
def decimal (n : Nat) : Str := decimalAux (n + 1) n

/-- `str(z)` for an integer. (`subgroup_handling.py:74-97`) -/
def intStr : Int → Str
  | .ofNat n => decimal n
  | .negSucc n => '-' :: decimal (n + 1)

/-! ## `simulators/util.py` -/

/-- `assign_external_array`, `util.py:20-40`. A value is `none` for NaN. The base array may itself contain
NaN. Arrays of different lengths: the boolean mask does not fit (`IndexError`). -/
def assignExternalArray (base : List (Option Rat)) (ext : Option (List (Option Rat))) : Except PyErr (List (Option Rat)) :=
  match ext with
  | none => .ok base
  | some e =>
    if e.length = base.length then .ok (base.zipWith (fun b x => match x with | some v => some v | none => b) e)
    else .error .indexError

/-- `assign_external_dict`, `util.py:43-59`: the entries of the external dictionary in order; a key missing in the
base raises `KeyError`. -/
def assignExternalDict {κ : Type} [DecidableEq κ] (base : Dict κ (List (Option Rat)))
    (ext : Option (List (κ × List (Option Rat)))) : Except PyErr (Dict κ (List (Option Rat))) :=
  match ext with
  | none => .ok base
  | some items => items.foldlM (fun d q =>
      match d q.1 with
      | none => .error .keyError
      | some b => (assignExternalArray b (some q.2)).map fun r => d.set q.1 r) base

/-! ## `utils/appliances.py` -/

/-- `remove_start`, `appliances.py:31-46`; `none` for `False`. -/
def removeStart (t : Str) : Option Str :=
  match splitAt '_' t with
  | _ :: q :: ps => some (joinWith ['_'] (q :: ps))
  | _ => none

/-- The loop of `find_closest_type`, `appliances.py:63-68`, with a bound on the number of iterations. The loop
also ends at the empty string, which is false in python. -/
def closestLoop (types : List Str) : Nat → Str → Option Str
  | 0, _ => none
  | f + 1, t =>
    if t = [] then none
    else if t ∈ types then some t
    else match removeStart t with
      | some t' => closestLoop types f t'
      | none => none

/-- `find_closest_type`, `appliances.py:49-68`; each iteration shortens the string. -/
def findClosestType (t : Str) (types : List Str) : Option Str := closestLoop types (t.length + 1) t

/-- `d[key]` in an association list. (`appliances.py:71-159`) -/
def lookupA {κ α : Type} [DecidableEq κ] (d : List (κ × α)) (k : κ) : Option α :=
  (d.find? fun q => decide (q.1 = k)).map (·.2)

/-- The state of the loops of `get_ownership_from_dict` and `get_target_from_dict`: the counter. (`appliances.py:71-159`) -/
def ownershipStep (dict : List (Str × Rat)) (default : List Rat) (counter : Dict Str Nat) (i : Nat) (t : Str) :
    Except PyErr (Dict Str Nat × Rat) :=
  match findClosestType t (dict.map (·.1)) with
  | none => (pyGet default i).map fun p => (counter, p)
  | some T =>
    let n := (counter T).getD 0
    let (counter, key) := if n = 0 then (counter.set T 1, T) else (counter.set T (n + 1), T ++ '_' :: decimal (n + 1))
    .ok (counter, (lookupA dict key).getD 0)

/-- The loop over the appliances. (`appliances.py:71-159`) -/
def ownershipLoop (dict : List (Str × Rat)) (default : List Rat) : Dict Str Nat → Nat → List Str → Except PyErr (List Rat)
  | _, _, [] => .ok []
  | counter, i, t :: ts => do
    let (counter, p) ← ownershipStep dict default counter i t
    let rest ← ownershipLoop dict default counter (i + 1) ts
    .ok (p :: rest)

/-- `get_ownership_from_dict`, `appliances.py:71-159`, and `get_target_from_dict`, `appliances.py:214-304`:
`default` is `appliances_dict['equipped_prob']` (resp. `appliances_dict[default_key]`). -/
def getOwnership (types : List Str) (dict : List (Str × Rat)) (default : List Rat) : Except PyErr (List Rat) :=
  ownershipLoop dict default Dict.empty 0 types

/-- The loop `while remaining_n > 1`, `appliances.py:203-206`, with a bound on the iterations. -/
def remainingLoop : Nat → Rat → List Rat
  | 0, _ => []
  | f + 1, r => if r > 1 then min (r - 1) 1 :: remainingLoop f (r - 1) else []

/-- `assign_ownership_from_prob1_and_number`, `appliances.py:162-211`; `number = none` for `np.nan`. Each
iteration lowers the remaining number by one, so `⌈remaining⌉` iterations are enough. -/
def assignOwnership (p : Rat) (number : Option Rat) (floorAlgo : Bool) : Except PyErr (List Rat) :=
  let n := number.getD p
  if p > n ∨ p < 0 ∨ p > 1 ∨ n < 0 then .error .valueError
  else if floorAlgo then .ok (p :: min (n - p) 1 :: remainingLoop (n - p).ceil.toNat (n - p))
  else .error .valueError

/-- An appliance dictionary: its arrays (distinct keys), and its `'number'` entry, which is kept apart. (`appliances.py:9-28`) -/
@[ext] structure ApplianceDict (α : Type) where
  arrays : List (Str × List α)
  number : Nat
  deriving DecidableEq

/-- `merge_appliance_dict`, `appliances.py:9-28`, for one dimensional arrays. -/
def ApplianceDict.merge {α : Type} (d e : ApplianceDict α) : ApplianceDict α :=
  { arrays := d.arrays.filterMap fun q => (lookupA e.arrays q.1).map fun b => (q.1, q.2 ++ b)
    number := d.number + e.number }

/-! ## `utils/subgroup_handling.py` -/

/-- The values of a subgroup: an integer or a list of integers (string values are not modelled). (`subgroup_handling.py:15-57`) -/
inductive SubVal where
  | int (n : Int)
  | list (l : List Int)
  deriving DecidableEq, Repr

/-- python `a > b`, `TypeError` for an integer against a list. (`subgroup_handling.py:24-53`) -/
def SubVal.gt : SubVal → SubVal → Except PyErr Bool
  | .int a, .int b => .ok (decide (a > b))
  | .list a, .list b => .ok (decide (b < a))
  | _, _ => .error .typeError

/-- A subgroup: an association list with distinct keys. (`subgroup_handling.py:15-57`) -/
abbrev Subgroup := List (Str × SubVal)

/-- The order of python strings. (`subgroup_handling.py:59-71`) -/
def strLe (a b : Str) : Bool := decide (a < b) || decide (a = b)

/-- `sorted` for strings. (`subgroup_handling.py:59-71`) -/
def sortStr (l : List Str) : List Str := l.insertionSort fun a b => strLe a b = true

/-- The loop of `Subgroup.__gt__`, `subgroup_handling.py:43-52`. -/
def gtLoop (self other : Subgroup) : List Str → Except PyErr Bool
  | [] => .ok false
  | k :: ks =>
    match lookupA other k with
    | none => .ok true
    | some o =>
      match lookupA self k with
      | none => .ok false
      | some s => do
        if ← o.gt s then return true
        if ← s.gt o then return false
        gtLoop self other ks

/-- `Subgroup.__gt__`, `subgroup_handling.py:24-53`. -/
def Subgroup.gt (self other : Subgroup) : Except PyErr Bool :=
  if other.length > self.length then .ok true
  else if other.length < self.length then .ok false
  else gtLoop self other (sortStr (self.map (·.1) ++ other.map (·.1)))

/-- `sort_subgroup`, `subgroup_handling.py:59-71`. -/
def sortSubgroup (s : Subgroup) : Subgroup := s.insertionSort fun a b => strLe a.1 b.1 = true

/-- `str(j)` of a value, or its elements joined by commas for a list, `subgroup_handling.py:91-94`. -/
def SubVal.str : SubVal → Str
  | .int n => intStr n
  | .list l => joinWith [','] (l.map intStr)

/-- `subgroup_string`, `subgroup_handling.py:74-97`. -/
def subgroupString (s : Subgroup) : Str :=
  joinWith ['_', '_'] ((sortSubgroup s).map fun q => q.1 ++ '_' :: q.2.str)

/-- `d.pop(k, None)` (`subgroup_handling.py:100-117`) -/
def popKey (s : Subgroup) (k : Str) : Subgroup := s.filter fun q => decide (q.1 ≠ k)

/-- `d[k] = v`: an existing key keeps its place. (`subgroup_handling.py:252-300`) -/
def setKey (s : Subgroup) (k : Str) (v : SubVal) : Subgroup :=
  if (lookupA s k).isSome then s.map fun q => if q.1 = k then (k, v) else q else s ++ [(k, v)]

/-- The keys used by the code. (`subgroup_handling.py:164-249`) -/
def kNResidents : Str := "n_residents".toList
/-- The key `'household_type'`. (`subgroup_handling.py:164-249`) -/
def kHouseholdType : Str := "household_type".toList
/-- The key `'household_position'`. (`subgroup_handling.py:164-249`) -/
def kPosition : Str := "household_position".toList
/-- The key `'age'`. (`subgroup_handling.py:164-249`) -/
def kAge : Str := "age".toList
/-- The key `'hh_mean_age'`. (`subgroup_handling.py:164-249`) -/
def kMeanAge : Str := "hh_mean_age".toList
/-- The key `'weekday'`. (`subgroup_handling.py:252-300`) -/
def kWeekday : Str := "weekday".toList
/-- The key `'quarter'`. (`subgroup_handling.py:252-300`) -/
def kQuarter : Str := "quarter".toList

/-- `remove_time_attributues`, `subgroup_handling.py:100-117`. -/
def removeTime (s : Subgroup) : Subgroup := popKey (popKey s kWeekday) kQuarter

/-- `range(n_residents - k)`: `TypeError` when `n_residents` is missing or is a list. (`subgroup_handling.py:164-249`) -/
def rangeResidents (n : Option SubVal) (k : Nat) : Except PyErr Nat :=
  match n with
  | some (.int z) => .ok (z - k).toNat
  | _ => .error .typeError

/-- `subgroup_households_to_persons`, `subgroup_handling.py:164-249`, for one household. The children are one
and the same python object; only their values are modelled. -/
def toPersons (hh : Subgroup) : Except PyErr (List Subgroup) :=
  let n := lookupA hh kNResidents
  let ty := lookupA hh kHouseholdType
  let s := popKey (popKey hh kNResidents) kHouseholdType
  if ty = some (.int 1) ∨ n = some (.int 1) then
    match lookupA s kAge, lookupA s kMeanAge with
    | none, some a => .ok [setKey (popKey s kMeanAge) kAge a]
    | _, _ => .ok [s]
  else if ty = some (.int 2) then .ok [setKey s kPosition (.int 1), setKey s kPosition (.int 2)]
  else if ty = some (.int 3) then do
    let k ← rangeResidents n 1
    .ok (setKey s kPosition (.int 1) :: List.replicate k (setKey s kPosition (.int 3)))
  else if ty = some (.int 4) then do
    let k ← rangeResidents n 2
    .ok (setKey s kPosition (.int 1) :: setKey s kPosition (.int 2) :: List.replicate k (setKey s kPosition (.int 3)))
  else do
    let k ← rangeResidents n 0
    .ok (List.replicate k s)

/-- `datetime.isoweekday()`: 1 for Monday; 0001-01-01 is a Monday (`subgroup_handling.py:252-300`). -/
def isoWeekday (t : Int) : Nat := ((dayNumber t) % 7).toNat + 1

/-- `add_time`, `subgroup_handling.py:252-300`. The python function also modifies its argument. -/
def addTime (s : Subgroup) (t : Int) (weekEndsDays weekSatSun sevenDays quarters : Bool) : Except PyErr Subgroup :=
  if (if sevenDays then 1 else 0) + (if weekEndsDays then 1 else 0) + (if weekSatSun then 1 else 0) > 1 then .error .valueError
  else
    let s :=
      if weekEndsDays then
        if isoWeekday t ≤ 5 then setKey s kWeekday (.list [1, 2, 3, 4, 5]) else setKey s kWeekday (.list [6, 7])
      else if weekSatSun then
        if isoWeekday t ≤ 5 then setKey s kWeekday (.list [1, 2, 3, 4, 5]) else setKey s kWeekday (.int (isoWeekday t))
      else if sevenDays then setKey s kWeekday (.int (isoWeekday t))
      else popKey s kWeekday
    .ok (if quarters then setKey s kQuarter (.int (((dateAt t).month - 1) / 3 + 1 : Nat)) else popKey s kQuarter)

/-- `is_weekend`, `subgroup_handling.py:140-149`: `KeyError` without weekday. -/
def isWeekend (s : Subgroup) : Except PyErr Bool :=
  match lookupA s kWeekday with
  | some v => .ok (decide (v = .list [6, 7]))
  | none => .error .keyError

/-- `is_weekday`, `subgroup_handling.py:152-161`. -/
def isWeekday (s : Subgroup) : Except PyErr Bool :=
  match lookupA s kWeekday with
  | some v => .ok (decide (v = .list [1, 2, 3, 4, 5]))
  | none => .error .keyError

/-- `check_weekend_day_format`, `subgroup_handling.py:120-137`. -/
def checkWeekendDayFormat (s : Subgroup) : Except PyErr Unit :=
  match lookupA s kWeekday with
  | some v => if v = .list [1, 2, 3, 4, 5] ∨ v = .list [6, 7] then .ok () else .error .valueError
  | none => .error .keyError

/-! ## `utils/countries.py` -/

/-- `country_name_to_code`, `countries.py:8-29`. -/
def countryCode (name : Str) : Except PyErr Str :=
  match lookupA [("germany".toList, "DE".toList), ("switzerland".toList, "CH".toList), ("england".toList, "GB".toList)] name with
  | some c => .ok c
  | none => .error .notImplementedError

/-- `is_country_code`, `countries.py:32-37`. -/
def isCountryCode (s : Str) : Bool := decide (s.length = 2)

end Demod
