import Verif.Model.SurveySparse
import Verif.Model.Individuals

/-!
# The activities of the German time use survey for the simulator of individuals (`demod/datasets/GermanTOU/parser.py:1732-1822`, `loader.py:154-186`)

The files of the parsed data (`tou_loader.py:46-95`) are not modelled here: the data are parsed each time.
-/

namespace Demod

/-- An argument that must be a number (`parser.py:145,194,218`); an empty list is no condition, another list cannot be compared with a number. -/
def numberArg : SubVal → Except PyErr Int
  | .int v => .ok v
  | .list [] => .ok 0
  | .list (_ :: _) => .error .typeError

/-- A keyword argument of `get_mask_subgroup` (`parser.py:66-76`) that is given in the subgroup of a person. Only the keys of the populations of demod, of `subgroup_households_to_persons` and of `add_time` are modelled; for any other
key this is a `TypeError`. -/
def personArg (a : SubgroupArgs) (kv : Str × SubVal) : Except PyErr SubgroupArgs :=
  if kv.1 = kNResidents then .ok { a with residents := oneOfVal kv.2 }
  else if kv.1 = kWeekday then .ok { a with weekday := oneOfVal kv.2 }
  else if kv.1 = kHouseholdType then do
    let v ← numberArg kv.2
    .ok { a with type := v }
  else if kv.1 = kPosition then do
    let v ← numberArg kv.2
    .ok { a with position := v }
  else if kv.1 = kQuarter then do
    let v ← numberArg kv.2
    .ok { a with quarter := v }
  else .error .typeError

/-- `load_tpm` of the survey with `activity_type='DemodActivities_0'` or `'Bottaccioli2018'`, `loader.py:154-186` (with `get_tpms_activity`, `parser.py:1732-1822`); `dict` is the dictionary of the activities. The occupancy is computed when
the module is imported (`parser.py:1713-1716`). -/
def surveyTpm (V : SurveyRaw) (dict : List (Int × Str)) : TpmLoader Str := fun g => do
  let occ ← statesToOccupancy V.primary V.secondary V.initial (finalLocation V.tables.rows.length V.initial V.final) V.home
  let a ← g.foldlM personArg {}
  let mask ← maskSubgroup V.tables a
  let rows := maskRows mask
  let r ← tpmsActivity true true .last (selectRows rows V.primary) (selectRows rows V.secondary) (selectRows rows occ) dict
  let n := r.2.1.length
  .ok (⟨n, n, (List.range V.primary.nT).map fun t => (List.range n).map fun i => (List.range n).map fun j => r.1 t i j⟩, r.2.1, (List.range n).map r.2.2)

end Demod
