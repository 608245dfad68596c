import Verif.Model.SurveyStats
import Verif.Model.SurveyMask
import Verif.Model.SparseAct

/-!
# The sparse matrices of the German time use survey (`demod/datasets/GermanTOU/parser.py:1875-1933`, `loader.py:224-238`)

The files of the parsed data (`tou_loader.py:179-228`) are not modelled here: the data are parsed each time.
-/

namespace Demod

/-- What the parser reads from the survey, `parser.py:22-55`: the tables, the activities, the places at the start and at the end of the days, and the two dictionaries `dic_home` and `GTOU_label_to_energy_activity`. -/
structure SurveyRaw where
  tables : SurveyTables
  primary : Diaries Int
  secondary : Diaries Int
  initial : Nat → Int
  final : Nat → Int
  home : Int → Option Int
  energy : Int → Option Str

/-- The rows that a mask selects (`parser.py:1910-1914`). -/
def maskRows (mask : List Bool) : List Nat := (List.range mask.length).filter fun k => mask.getD k false

/-- `x[mask]`, `parser.py:1912`, for the selected rows. -/
def selectRows {σ : Type} (rows : List Nat) (X : Diaries σ) : Diaries σ := ⟨rows.length, X.nT, fun p t => X.at' (rows.getD p 0) t⟩

/-- The order of natural numbers (`np.unique`, `parse_helpers.py:278-280`). -/
def natLt (a b : Nat) : Bool := decide (a < b)

/-- `active_states`, `parser.py:1884-1888`. -/
def activeStates (V : SurveyRaw) : Except PyErr (Nat → Nat → Bool) := do
  let main ← convertArray intLt strLt V.energy V.primary
  let sec ← convertArray intLt strLt V.energy V.secondary
  .ok fun p t => decide (main.2.getD (main.1.at' p t) [] ≠ "not active".toList) && decide (sec.2.getD (sec.1.at' p t) [] ≠ "not active".toList)

/-- `get_data_sparse9states`, `parser.py:1875-1933`, without the legend. The occupancy is computed when the module is imported (`parser.py:1713-1716`). The numbers of the days (`tagnr`) are not negative. -/
def sparse9States (V : SurveyRaw) (a : SubgroupArgs) : Except PyErr (SparseTPM × List Nat × List Str × List Rat) := do
  let occ ← statesToOccupancy V.primary V.secondary V.initial (finalLocation V.tables.rows.length V.initial V.final) V.home
  let active ← activeStates V
  let mask ← maskSubgroup V.tables a
  let rows := maskRows mask
  let personas : Diaries Nat := ⟨V.primary.nP, V.primary.nT, fun p t => personaState (active p t) (outForWhat (occ.at' p t) (V.primary.at' p t) (V.secondary.at' p t))⟩
  let hh ← groupHouseholds (selectRows rows personas) (rows.map fun p => (V.tables.rows.map (·.hh)).getD p 0) (rows.map fun p => (V.tables.rows.map fun r => r.day.toNat).getD p 0)
  let r ← convertArray natLt natLt some hh
  let tpm ← statesToSparseTpm r.1 .nothing
  .ok (tpm, r.2, ["active".toList, "HWH".toList, "HOH".toList], (List.range tpm.nStates).map (initialPdf r.1))

/-- A keyword argument that is a number or a list. (`parser.py:66-76`) -/
def oneOfVal : SubVal → OneOf
  | .int v => .one v
  | .list vs => .list vs

/-- A keyword argument of `get_mask_subgroup` (`parser.py:66-76`) that is given in the subgroup. A list cannot be compared with a number (`parser.py:196`). Only the keys of the populations of demod are modelled; for any other key this is a `TypeError`. -/
def subgroupArg (a : SubgroupArgs) (kv : Str × SubVal) : Except PyErr SubgroupArgs :=
  if kv.1 = kNResidents then .ok { a with residents := oneOfVal kv.2 }
  else if kv.1 = kHouseholdType then
    match kv.2 with
    | .int v => .ok { a with type := v }
    | .list [] => .ok a
    | .list _ => .error .typeError
  else .error .typeError

/-- The keyword arguments of `get_mask_subgroup`, `parser.py:1907`: those of the subgroup and those that `update_new_day` adds (`sparse_simulators.py:530-546`). -/
def subgroupArgs (g : Subgroup) (c : Option DayClass) : Except PyErr SubgroupArgs := do
  let a ← g.foldlM subgroupArg {}
  match c with
  | none => .ok a
  | some c => .ok { a with weekday := oneOfVal c.weekday, quarter := c.quarter.getD 0 }

/-- `load_sparse_tpm` of the survey with `activity_type='Sparse9States'`, `loader.py:224-238` and `tou_loader.py:179-228`. -/
def surveyLoad (V : SurveyRaw) : SparseLoad := fun g c => do
  let a ← subgroupArgs g c
  sparse9States V a

end Demod
