import Verif.Model.Sampling
import Verif.Model.Utils
import Verif.Model.Markov

/-!
# The loader of the CREST workbook (`demod/datasets/CREST/loader.py`)

The sheets of the workbook, as pandas reads them, are arguments (`CrestBook`). `true` stands for a week-end. NaN cells are not modelled in the sheets of the probabilities.
-/

namespace Demod

/-- What pandas reads from the workbook. (`CREST/loader.py:240-299`, `CREST/loader.py:379-437`) -/
structure CrestBook where
  /-- The rows of the sheets `tpm{n}_wd`, `tpm{n}_we`, from the third column on. -/
  tpm : Nat → Bool → List (List Rat)
  /-- The columns of the table of the starting states, by their names, which are numbers of residents. -/
  starts : Bool → List (Nat × List Rat)
  /-- The column of the labels of this table. -/
  startLabels : Bool → List Nat
  /-- The rows of the table of the activities. -/
  stats : Bool → List (List Rat)
  /-- The names of the activities, in upper case. -/
  activities : List Str

/-- `[1, 2, 3, 4, 5]` (`CREST/loader.py:192-201`) -/
def kWeekdays : SubVal := .list [1, 2, 3, 4, 5]

/-- `[6, 7]` (`CREST/loader.py:192-201`) -/
def kWeekend : SubVal := .list [6, 7]

/-- `_check_crest_subgroup` and `_subgroup_to_daytype`, `CREST/loader.py:169-201`: the number of residents and whether it is a week-end. -/
def crestSubgroup (g : Subgroup) : Except PyErr (Nat × Bool) :=
  match lookupA g kNResidents, lookupA g kWeekday with
  | some n, some w =>
    if w ≠ kWeekdays ∧ w ≠ kWeekend then .error .valueError
    else match n with
      | .int n => if n ∈ [1, 2, 3, 4, 5, 6] then .ok (n.toNat, decide (w = kWeekend)) else .error .valueError
      | .list _ => .error .valueError
  | _, _ => .error .valueError

/-- `reshape(a, b, c)` of the values in order; `ValueError` if their number is another one. (`CREST/loader.py:254`, `CREST/loader.py:404`) -/
def reshape3 (a b c : Nat) (flat : List Rat) : Except PyErr (List (List (List Rat))) :=
  if flat.length = a * b * c then
    .ok ((List.range a).map fun i => (List.range b).map fun j => (List.range c).map fun k => flat.getD ((i * b + j) * c + k) 0)
  else .error .valueError

/-- The missing rows of a matrix become rows of the identity, `CREST/loader.py:260-262`. -/
def stayOnMissing (mat : List (List Rat)) : List (List Rat) :=
  mat.zipIdx.map fun q => if q.1.sum = 0 then q.1.set q.2 1 else q.1

/-- `mask`, `CREST/loader.py:286-291`. -/
def startMask (n : Nat) : List Nat := (List.range (n + 1)).flatMap fun m => (List.range (n + 1)).map fun k => k + 7 * m

/-- `_parse_tpm`, `CREST/loader.py:240-299`; the first two columns of a sheet are left out of `CrestBook.tpm`. -/
def crestParseTpm (B : CrestBook) (n : Nat) (weekend : Bool) : Except PyErr (Tpms × List Nat × List Rat) := do
  let nStates := (n + 1) ^ 2
  let tpms ← reshape3 144 nStates nStates ((B.tpm n weekend).map fun row => row.take nStates).flatten
  let mats ← (tpms.map stayOnMissing).mapM (rescalePdf (1 / 10))
  match lookupA (B.starts weekend) n with
  | none => .error .keyError
  | some col => do
    let start ← (startMask n).mapM (pyGet col)
    let labels ← (startMask n).mapM (pyGet (B.startLabels weekend))
    .ok ({ rows := nStates, cols := nStates, mats := mats }, labels, start)

/-- `load_tpm`, `CREST/loader.py:203-238`, without stored files (see `Model/Store.lean` for these). -/
def crestLoadTpm (B : CrestBook) (g : Subgroup) : Except PyErr (Tpms × List Nat × List Rat) := do
  let (n, weekend) ← crestSubgroup g
  crestParseTpm B n weekend

/-- The dictionary of `crest_act_to_demod`, `CREST/utils.py:11-20`. -/
def crestActs : List (Str × Str) :=
  [("LEVEL".toList, "level".toList), ("ACTIVE_OCC".toList, "active_occupancy".toList), ("ACT_IRON".toList, "ironing".toList),
   ("ACT_HOUSECLEAN".toList, "cleaning".toList), ("ACT_TV".toList, "watching_tv".toList), ("ACT_COOKING".toList, "cooking".toList),
   ("ACT_LAUNDRY".toList, "laundry".toList), ("ACT_WASHDRESS".toList, "self_washing".toList)]

/-- `crest_act_to_demod`, `CREST/utils.py:5-21`; `KeyError` for an unknown name. -/
def crestActToDemod (names : List Str) : Except PyErr (List Str) :=
  names.mapM fun a => match lookupA crestActs a with | some b => .ok b | none => .error .keyError

/-- A dictionary comprehension: a later value replaces the one of the same key. (`CREST/loader.py:433-436`) -/
def dictOf {α : Type} (items : List (Str × α)) : List (Str × α) :=
  items.foldl (fun d q => if (lookupA d q.1).isSome then d.map fun r => if r.1 = q.1 then q else r else d ++ [q]) []

/-- `_parse_activity_profiles`, `CREST/loader.py:379-437`: for each activity the probabilities by time and number of active occupants. `KeyError` without an entry `'weekday'`. Each of the names of
the activities must have a column of values (`zip` truncates otherwise). -/
def crestActivityProfiles (B : CrestBook) (g : Subgroup) : Except PyErr (List (Str × List (List Rat))) := do
  match lookupA g kWeekday with
  | none => .error .keyError
  | some w =>
    if w ≠ kWeekdays ∧ w ≠ kWeekend then .error .valueError
    else do
      let rows := B.stats (decide (w = kWeekend))
      let flat := (List.range 144).flatMap fun t => rows.map fun r => r.getD t 0
      if rows.any fun r => decide (r.length ≠ 144) then .error .valueError
      else do
        let pdf ← reshape3 144 6 6 flat
        let pdf := pdf.map fun slot => slot.zipIdx.map fun q => q.1 ++ [1] ++ [if q.2 = 0 then 0 else 1]
        let labels ← crestActToDemod (B.activities ++ ["LEVEL".toList] ++ ["ACTIVE_OCC".toList])
        let profiles := (List.range 8).map fun a => pdf.map fun slot => slot.map fun acts => acts.getD a 0
        .ok (dictOf (labels.zip profiles))

/-- The loop `while temp_type in app_ownership`, `CREST/loader.py:452-457`, from the value `counter`, with a bound on the iterations. -/
def freeKey (keys : List Str) (t : Str) : Nat → Nat → Str
  | 0, counter => t ++ '_' :: decimal counter
  | f + 1, counter =>
    let k := if counter = 1 then t else t ++ '_' :: decimal counter
    if k ∈ keys then freeKey keys t f (counter + 1) else k

/-- `_parse_appliance_ownership_dict`, `CREST/loader.py:439-461`. The keys are finitely many, so the search of a new one ends. -/
def crestOwnership (types : List Str) (probs : List Rat) : List (Str × Rat) :=
  (types.zip probs).foldl (fun d q => d ++ [(freeKey (d.map (·.1)) q.1 (d.length + 1) 1, q.2)]) []

/-- `inactive_switch_off`, `CREST/loader.py:331-339`, for the use profiles and the names of the appliances: the third argument of `np.logical_or` is the array of the result, so that the comparison with `DISH_WASHER` is overwritten. -/
def crestInactiveSwitchOff (apps : List (Str × Str)) : List Bool :=
  apps.map fun q => !(decide (q.1 = "ACT_WASHDRESS".toList) || decide (q.1 = "LEVEL".toList))

/-- The arrays of `_parse_appliance_dict` that come from the column of the powers, `CREST/loader.py:347-376`: mean power, mean flow, litres of a use, whether water is used. `IndexError` for less than four appliances. -/
def crestConsumption (column : List Rat) : Except PyErr (List Rat × List Rat × List Rat × List Bool) :=
  let n := column.length
  if n < 4 then .error .indexError
  else .ok (column.take (n - 4) ++ List.replicate 4 0, List.replicate (n - 4) 0 ++ column.drop (n - 4),
    List.replicate (n - 4) 0 ++ [23 / 10, 23 / 10, 257 / 10, 733 / 10], List.replicate (n - 4) false ++ List.replicate 4 true)

/-- `mean_power_factor`, `CREST/loader.py:357-358`. -/
def crestPowerFactor (column : List (Option Rat)) : List Rat := column.map fun x => x.getD 1

/-- `_parse_clearness_tpms`, `CREST/loader.py:463-494`, for the version 2.2; a label is `none` for the name `Clear`. `IndexError` for too small a table. -/
def crestClearness (columns : List (Option Rat)) (table : List (List Rat)) : Except PyErr (List (List Rat) × List Rat) :=
  match table with
  | [] => .error .indexError
  | row :: rest =>
    if row.length < 2 then .error .indexError
    else do
      let tpm ← rescalePdf (1 / 10) (row.set 1 1 :: rest)
      .ok (tpm, columns.map fun c => c.getD 1)

end Demod
