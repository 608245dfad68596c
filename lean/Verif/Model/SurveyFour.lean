import Verif.Model.SurveyInd
import Verif.Model.SurveyStats

/-!
# The 4-states data of the German time use survey (`demod/datasets/GermanTOU/parser.py:1824-1873`, `loader.py:154-158`)

The files of the parsed data (`tou_loader.py:46-95`) are not modelled here: the data are parsed each time.
-/

namespace Demod

/-- `load_tpm` of the survey with `activity_type='4_States'`, `loader.py:154-158` (with `get_data_4states` without durations, `parser.py:1824-1873`), without the legend. The occupancy and the activity are computed when the module is
imported (`parser.py:1713-1716`); `known` are the codes of the dictionary of `states_to_activity`. The numbers of the days (`tagnr`) are not negative. -/
def surveyFour (V : SurveyRaw) (known : List Int) : TpmLoader Nat := fun g => do
  let occ ← statesToOccupancy V.primary V.secondary V.initial (finalLocation V.tables.rows.length V.initial V.final) V.home
  let act ← statesToActivity known V.primary
  let a ← g.foldlM personArg {}
  let mask ← maskSubgroup V.tables a
  let rows := maskRows mask
  let hh ← groupHouseholds4 (selectRows rows (fourStates occ fun p t => (act.at' p t).toNat)) (rows.map fun p => (V.tables.rows.map (·.hh)).getD p 0) (rows.map fun p => (V.tables.rows.map fun r => r.day.toNat).getD p 0)
  let r ← convertArray natLt natLt some hh
  let tpm ← statesToTpms r.1 .last none
  .ok (⟨tpm.1, tpm.1, (List.range hh.nT).map fun t => (List.range tpm.1).map fun i => (List.range tpm.1).map fun j => tpm.2 t i j⟩, r.2, (List.range r.2.length).map (initialPdf r.1))

end Demod
