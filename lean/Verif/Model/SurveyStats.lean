import Verif.Model.Survey
import Verif.Model.Graph

/-!
# Statistics of the German time use survey (`demod/datasets/GermanTOU/parser.py`, `loader.py`)

The selected diaries `primary_states[mask]`, `secondary_states[mask]`, `occ[mask]` and `act[mask]` are arguments. The dictionaries of activities are lists of pairs. Strings are not truncated to the width
of their numpy array.
-/

namespace Demod

/-- The order of strings (`np.unique`, `parse_helpers.py:278-280`). -/
def strLt (a b : Str) : Bool := decide (a < b)

/-- `d[k] = v` for a dictionary with integer keys (`parser.py:1758`). -/
def intPut : List (Int × Str) → Int → Str → List (Int × Str)
  | [], k, v => [(k, v)]
  | (k', v') :: d, k, v => if k' = k then (k, v) :: d else (k', v') :: intPut d k v

/-- `d[k]` (`parse_helpers.py:283-285`). -/
def intGet (d : List (Int × Str)) (k : Int) : Option Str := (d.find? fun q => decide (q.1 = k)).map (·.2)

/-- `states_label[states_label=='-'] = 'other'`, `parser.py:1763`. -/
def renameDash (labels : List Str) : List Str := labels.map fun l => if l = "-".toList then "other".toList else l

/-- The states and labels of `get_tpms_activity`, `parser.py:1754-1787`, and of `get_states`, `loader.py:284-316`. The secondary activities `_S` are never read: line 1767 (306 in the loader) takes the primary ones instead. -/
def activityStates (addAway useSec : Bool) (P _S : Diaries Int) (occ : Diaries Bool) (dict : List (Int × Str)) : Except PyErr (Diaries Nat × List Str) := do
  let raw : Diaries Int := if addAway then ⟨P.nP, P.nT, fun p t => if occ.at' p t then P.at' p t else 0⟩ else P
  let dict := if addAway then intPut dict 0 "away".toList else dict
  let r ← convertArray intLt strLt (intGet dict) raw
  let labels := renameDash r.2
  let r' ← if useSec then do
      let s ← convertArray intLt strLt (intGet dict) P
      let secLabels := renameDash s.2
      convertArray strLt strLt some ⟨P.nP, P.nT, fun p t =>
        let l := labels.getD (r.1.at' p t) []
        let l' := secLabels.getD (s.1.at' p t) []
        if l = "other".toList ∧ l' ≠ "other".toList then l' else l⟩
    else .ok (r.1, labels)
  .ok (r'.1, r'.2 ++ (dict.map (·.2)).filter fun a => decide (a ∉ r'.2))

/-- `initial_counts / np.sum(initial_counts)`, `parser.py:1790-1791` (also 1842-1843): the distribution of the states at the first time over `n` labels. -/
def initialPdf (D : Diaries Nat) (i : Nat) : Rat := ((D.col 0).count i : Rat) / (D.nP : Rat)

/-- `get_tpms_activity` without durations, `parser.py:1732-1822`: the matrices, the labels and the initial distribution. -/
def tpmsActivity (addAway useSec : Bool) (algo : FirstTpm) (P S : Diaries Int) (occ : Diaries Bool) (dict : List (Int × Str)) : Except PyErr ((Nat → Nat → Nat → Rat) × List Str × (Nat → Rat)) := do
  let r ← activityStates addAway useSec P S occ dict
  let tpm ← statesToTpms r.1 algo (some r.2.length)
  .ok (tpm.2, r.2, initialPdf r.1)

/-- `get_states` of the loader, `loader.py:253-333`: the labels of the activities; `dict` is `corresponding_dict`. Without `add_away_state` the variable `activity_dict` is not defined. -/
def loaderStates (addAway useSec : Bool) (P S : Diaries Int) (occ : Diaries Bool) (dict : Option (List (Int × Str))) : Except PyErr (Diaries Str) :=
  match dict with
  | none => .error .valueError
  | some dict =>
    if addAway then do
      let r ← activityStates addAway useSec P S occ dict
      .ok ⟨P.nP, P.nT, fun p t => r.2.getD (r.1.at' p t) []⟩
    else .error .unboundLocalError

/-! ## Profiles -/

/-- `states_to_activity` for one code, `parser.py:1340-1502`: `known` are the codes in the dictionary; those of sleeping (110) and of illness (132) are not active. -/
def activeCode (known : List Int) (s : Int) : Option Int := if s ∈ known then some (if s = 110 ∨ s = 132 then 0 else 1) else none

/-- `l[s]` with the result of `convert_states`, `parser.py:1340-1502`. -/
def statesToActivity (known : List Int) (P : Diaries Int) : Except PyErr (Diaries Int) := do
  let r ← convertArray intLt intLt (activeCode known) P
  .ok ⟨P.nP, P.nT, fun p t => r.2.getD (r.1.at' p t) 0⟩

/-- The profile of one activity in `create_data_activity_profile`, `parser.py:1938-2019`; the value for time `t` and `n` active occupants. The days have 144 times. -/
def activityProfile (P S : Diaries Int) (dict : Int → Option Str) (occ : Diaries Bool) (act : Nat → Nat → Nat) (household day : List Nat) (desired : Str) : Except PyErr (Nat → Nat → Rat) := do
  let main ← convertArray intLt strLt dict P
  let sec ← convertArray intLt strLt dict S
  let hh ← groupHouseholds4 (fourStates occ act) household day
  let active := fun r t => min (hh.at' r t % 10) (hh.at' r t / 10)
  let doing := fun p t => decide (main.2.findIdx? (fun l => decide (l = desired)) = some (main.1.at' p t)) || decide (sec.2.findIdx? (fun l => decide (l = desired)) = some (sec.1.at' p t))
  let n ← groupHouseholds ⟨P.nP, P.nT, fun p t => if doing p t then 1 else 0⟩ household day
  if P.nT ≠ 144 then .error .valueError
  else .ok fun t k =>
    if 1 ≤ k ∧ k < 6 then
      let d := (List.range hh.nP).countP fun r => decide (active r t = k)
      if d = 0 then 0 else ((List.range hh.nP).countP fun r => decide (n.at' r t > 0) && decide (active r t = k) : Rat) / (d : Rat)
    else 0

/-! ## Statistics of the loader -/

/-- One entry of `_parse_activity_duration`, `loader.py:335-345`: the share of each duration, from 0 to the longest one. -/
def durationPdf (ds : List Int) : Except PyErr (List Rat) :=
  if ds.any fun d => decide (d < 0) then .error .valueError
  else .ok ((bincount (ds.map Int.toNat) 0).map fun (n : Nat) => (n : Rat) / (ds.length : Rat))

/-- `_parse_activity_duration`, `loader.py:335-345`. -/
def activityDurations (states : Diaries Str) : Except PyErr (List (Str × List Rat)) := do
  let d ← durationsByStates states
  d.mapM fun q => do
    let pdf ← durationPdf q.2
    .ok (q.1, pdf)

/-- `_parse_activity_probabilities`, `loader.py:387-404`: the share of the diaries in an activity at each time. No activity is called 'active_occupancy' (also below). -/
def activityProbabilities (states : Diaries Str) : Except PyErr (List (Str × List Rat)) :=
  let share := fun s => (List.range states.nT).map fun t => ((states.col t).count s : Rat) / (states.nP : Rat)
  let keys := npUnique strLt states.flat
  if "away".toList ∉ keys ∨ "sleeping".toList ∉ keys then .error .keyError
  else .ok (keys.map (fun s => (s, share s)) ++
    [("active_occupancy".toList, (List.range states.nT).map fun t => min (max (1 - (share "away".toList).getD t 0 - (share "sleeping".toList).getD t 0) 0) 1)])

/-- One entry of `_parse_daily_activity_starts`, `loader.py:361-384`: `counted` selects the transitions; `ids` are `hh_id * 4 + day_id` of the diaries. -/
def dailyStarts (ids : List Nat) (nDiaries : Nat) (tr : Transitions Str) (counted : Str → Bool) : List Rat :=
  let selected := ((tr.persons.zip tr.newStates).filter fun q => counted q.2).map fun q => ids.getD q.1 0
  (bincount (bincount selected 0) 0).map fun (n : Nat) => (n : Rat) / (nDiaries : Rat)

/-- `_parse_daily_activity_starts`, `loader.py:347-385`; `hh` and `day` are the columns of the selected diaries. -/
def dailyActivityStarts (states : Diaries Str) (hh day : List Nat) : Except PyErr (List (Str × List Rat)) := do
  let tr ← statesToTransitions states false false
  let ids := (hh.zip day).map fun q => q.1 * 4 + q.2
  .ok ((npUnique strLt tr.newStates).map (fun a => (a, dailyStarts ids states.nP tr fun s => decide (s = a))) ++
    [("active_occupancy".toList, dailyStarts ids states.nP tr fun s => decide (s = "sleeping".toList) || decide (s = "away".toList))])

end Demod
