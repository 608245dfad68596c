import Verif.Model.Crest
import Verif.Model.Destatis

/-! # The excel file of inputs

`demod/datasets/ExcellInputFile/loader.py` and `remove_spaces` of `demod/utils/parse_helpers.py`. A sheet, as pandas reads it, is an argument: its columns in order, each with its label and its cells. The labels are texts.
-/

namespace Demod

/-- A cell of a sheet: a text, a number, a boolean, an empty cell (NaN), or any other object such as a date. (`parse_helpers.py:341-372`) -/
inductive Cell where
  | text (s : Str)
  | num (x : Rat)
  | bool (b : Bool)
  | empty
  | other
  deriving DecidableEq

/-- What the dictionary of a sheet contains at a key: the list of the cells of a column, the array of booleans of a column or the number of rows. (`ExcellInputFile/loader.py:66-84`) -/
inductive SheetVal where
  | cells (l : List Cell)
  | flags (l : List Bool)
  | count (n : Nat)
  deriving DecidableEq

/-- `object.replace(" ", "")`, `parse_helpers.py:350-351`. -/
def noSpaces (s : Str) : Str := s.filter fun c => decide (c ≠ ' ')

/-- `remove_spaces` of a cell, `parse_helpers.py:350-372`: texts lose their spaces, numbers and booleans are kept, `NotImplementedError` for other objects. -/
def removeSpacesCell : Cell → Except PyErr Cell
  | .text s => .ok (.text (noSpaces s))
  | .other => .error .notImplementedError
  | c => .ok c

/-- `remove_spaces` of the entry of a column in the dictionary, `parse_helpers.py:352-358`. -/
def removeSpacesColumn (c : Str × List Cell) : Except PyErr (Str × List Cell) := do
  let l ← c.2.mapM removeSpacesCell
  .ok (noSpaces c.1, l)

/-- `str(key).startswith("Unnamed:")`, `ExcellInputFile/loader.py:69-69`. -/
def isUnnamed (label : Str) : Bool := "Unnamed:".toList.isPrefixOf label

/-- The columns with a name, without spaces, `ExcellInputFile/loader.py:66-71` (also `162-167` and `181-186`): if two labels differ only by spaces the later column replaces the other. -/
def sheetDict (cols : List (Str × List Cell)) : Except PyErr (List (Str × List Cell)) := do
  let clean ← (cols.filter fun c => !isUnnamed c.1).mapM removeSpacesColumn
  .ok (dictOf clean)

/-- An element of `np.array(…, dtype=bool)`: the truth value of python; an empty cell is NaN, which is true. (`ExcellInputFile/loader.py:73-80`) -/
def cellTruth : Cell → Bool
  | .text s => decide (s ≠ [])
  | .num x => decide (x ≠ 0)
  | .bool b => b
  | .empty => true
  | .other => true

/-- `if key in appliances: appliances[key] = np.array(appliances[key], dtype=bool)`, `ExcellInputFile/loader.py:73-80`. -/
def asFlags (key : Str) (d : List (Str × SheetVal)) : List (Str × SheetVal) :=
  match lookupA d key with
  | some (.cells l) => dictSet d key (.flags (l.map cellTruth))
  | _ => d

/-- `d["number"] = len(d["name"])`, `ExcellInputFile/loader.py:82-82` (also `169-169` and `188-188`): `KeyError` without names. -/
def withNumber (d : List (Str × SheetVal)) : Except PyErr (List (Str × SheetVal)) :=
  match lookupA d "name".toList with
  | some (.cells l) => .ok (dictSet d "number".toList (.count l.length))
  | some (.flags l) => .ok (dictSet d "number".toList (.count l.length))
  | some (.count _) => .error .typeError
  | none => .error .keyError

/-- `load_appliance_dict`, `ExcellInputFile/loader.py:57-84`, for the sheet of the appliances. -/
def loadApplianceSheet (cols : List (Str × List Cell)) : Except PyErr (List (Str × SheetVal)) := do
  let d ← sheetDict cols
  let d := d.map fun q => (q.1, SheetVal.cells q.2)
  let d := asFlags "inactive_switch_off".toList d
  let d := asFlags "uses_water".toList d
  withNumber d

/-- `load_buildings_dict` and `load_heating_system_dict`, `ExcellInputFile/loader.py:154-190`, for the sheet of the buildings or of the heating systems; the subgroup is not used. -/
def loadNamedSheet (cols : List (Str × List Cell)) : Except PyErr (List (Str × SheetVal)) := do
  let d ← sheetDict cols
  withNumber (d.map fun q => (q.1, SheetVal.cells q.2))

/-- `d[k]` for a list of cells, `ExcellInputFile/loader.py:216-216`: `KeyError` without the key. (The flags and the number are not read by this code.) -/
def columnOf (d : List (Str × SheetVal)) (k : Str) : Except PyErr (List Cell) :=
  match lookupA d k with
  | some (.cells l) => .ok l
  | some (.flags l) => .ok (l.map .bool)
  | some (.count _) => .error .typeError
  | none => .error .keyError

/-- A dictionary comprehension, whose keys are cells: a later value replaces the one of the same key, which keeps its place. (`ExcellInputFile/loader.py:214-217`; empty cells are one key here.) -/
def cellDict (items : List (Cell × Cell)) : List (Cell × Cell) :=
  items.foldl (fun d q => if (lookupA d q.1).isSome then d.map fun r => if r.1 = q.1 then q else r else d ++ [q]) []

/-- `load_yearly_target_switchons`, `ExcellInputFile/loader.py:210-217`. -/
def loadYearlyTargets (cols : List (Str × List Cell)) : Except PyErr (List (Cell × Cell)) := do
  let d ← loadApplianceSheet cols
  let types ← columnOf d "type".toList
  let targets ← columnOf d "target_cycle_year".toList
  .ok (cellDict (types.zip targets))

end Demod
