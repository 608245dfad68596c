import Verif.Model.Utils
import Verif.Model.Profiles

/-!
# What the households own: appliances, load profiles, probabilities (`demod/simulators/appliance_simulators.py`)

The construction of the appliance simulators. An appliance dictionary, which holds arrays with one entry per appliance, is the list of
its appliances. Arrays with one entry per household and appliance are lists of rows, or functions of both. Random draws are arguments. Numbers are rationals.
-/

namespace Demod

/-- The entries of the appliance dictionary at one position (`appliance_simulators.py:38-137`); `previousActivity` and `previousType` are `none`
for `'nan'`. -/
structure AppInfo where
  name : Str
  type : Str
  activity : Str
  equippedProb : Rat
  probabilistic : Bool
  meanDuration : Rat
  switchOnProb : Rat
  targetSwitchons : Rat
  previousActivity : Option Str
  previousType : Option Str
deriving DecidableEq

/-- `ALWAYS_ON_ACTIVITES`, `appliance_simulators.py:35`. -/
def alwaysOn : List Str := ["level".toList, "constant".toList]

/-! ## Subgroups and households -/

/-- `np.concatenate([i * np.ones(n) for i, n in enumerate(n_households_list)])`, `appliance_simulators.py:304-308`; `i` is the first number. -/
def hhTypesFrom (i : Nat) : List Nat → List Nat
  | [] => []
  | n :: ns => List.replicate n i ++ hhTypesFrom (i + 1) ns

/-- `_parse_subgroups`, `appliance_simulators.py:280-308`: `subgroups_list` and `hh_types`. `np.concatenate` of nothing raises `ValueError`. -/
def parseHouseholds (n : Nat) (subs : Option (List Subgroup)) (ns : Option (List Nat)) : Except PyErr (List Subgroup × List Nat) :=
  match subs, ns with
  | none, none => .ok ([[]], List.replicate n 0)
  | some subs, some ns =>
    if ns.sum ≠ n then .error .valueError
    else if ns = [] then .error .valueError
    else .ok (subs, hhTypesFrom 0 ns)
  | _, _ => .error .attributeError

/-! ## `sample_available_appliances` -/

/-- The values of `equipped_sampling_algo`, with what they use, `appliance_simulators.py:172-238`: for `'subgroup'` the result of `load_appliance_ownership_dict` for each
subgroup, for `'set_defined'` the list of lists of names. -/
inductive EquipAlgo where
  | basic
  | subgroup (dict : Subgroup → List (Str × Rat))
  | correlated
  | setDefined (sets : List (List Str))
  | all
  | unknown

/-- `rand < available_probs` for the households and their rows of probabilities, `appliance_simulators.py:212-216, 275-278`. -/
def drawOwned (u : Nat → Nat → Rat) (rows : List (List Rat)) : List (List Bool) :=
  rows.mapIdx fun h row => row.mapIdx fun a p => decide (u h a < p)

/-- `sample_available_appliances`, `_appliance_set` and `_sample_from_subgroup`, `appliance_simulators.py:172-278`. `hhTypes` is `self.hh_types`; `u h a` are the uniform draws. The check of
lines 246-249 compares two lengths that are always equal. -/
def sampleAvailable (apps : List AppInfo) (subs : List Subgroup) (hhTypes : List Nat) (u : Nat → Nat → Rat) : EquipAlgo → Except PyErr (List (List Bool))
  | .basic => .ok (drawOwned u (hhTypes.map fun _ => apps.map (·.equippedProb)))
  | .subgroup dict => do
    let probs ← subs.mapM fun s => getOwnership (apps.map (·.type)) (dict s) (apps.map (·.equippedProb))
    let rows ← hhTypes.mapM fun k => pyGet probs k
    .ok (drawOwned u rows)
  | .correlated => .error .notImplementedError
  | .setDefined sets => do
    let owned ← (List.range subs.length).mapM fun k => (pyGet sets k).map fun set => apps.map fun a => decide (a.name ∈ set)
    hhTypes.mapM fun k => pyGet owned k
  | .all => .ok (hhTypes.map fun _ => apps.map fun _ => true)
  | .unknown => .error .valueError

/-! ## `sample_real_load_profiles` -/

/-- What `sample_real_load_profiles` sets, `appliance_simulators.py:347-358`: which appliances use profiles, and for each household and appliance
the number of the profile and its length; the profiles of each type, padded with zeros. -/
structure ProfileChoice where
  varLoad : Nat → Bool
  id : Nat → Nat → Nat
  duration : Nat → Nat → Nat
  loads : Str → Option (List (List Rat))

/-- The arrays of zeros, `appliance_simulators.py:347-358`. -/
def ProfileChoice.none' : ProfileChoice := { varLoad := fun _ => false, id := fun _ _ => 0, duration := fun _ _ => 0, loads := fun _ => none }

/-- `self.loads_dict[app_type]`: the profiles with zeros up to the longest, `appliance_simulators.py:441-448`. `max` of no length raises `ValueError`. -/
def padProfiles (profiles : List (List Rat)) : Except PyErr (List (List Rat)) :=
  if profiles = [] then .error .valueError
  else
    let m := (profiles.map List.length).foldl max 0
    .ok (profiles.map fun p => p ++ List.replicate (m - p.length) 0)

/-- The loop over the types, `appliance_simulators.py:416-448` and `492-524`. `draw h a` is the profile drawn for an appliance of a household (below the number of profiles of its type). -/
def chooseType (apps : List AppInfo) (owned : Nat → Nat → Bool) (dict : ProfilesDict (List Rat)) (draw : Nat → Nat → Nat) (s : ProfileChoice) (T : Str) : Except PyErr ProfileChoice :=
  match dict.get T with
  | none => .ok s
  | some named => do
    let profiles := named.map (·.2)
    let padded ← padProfiles profiles
    let this h a := owned h a && decide ((apps[a]?).map (·.type) = some T)
    .ok { varLoad := s.varLoad
          id := fun h a => if this h a then draw h a else s.id h a
          duration := fun h a => if this h a then (profiles.getD (draw h a) []).length else s.duration h a
          loads := fun T' => if T' = T then some padded else s.loads T' }

/-- `_sample_switched_on_load_profiles` (`always = false`), `appliance_simulators.py:381-456`, and `_sample_always_on_load_profiles` (`always = true`), `appliance_simulators.py:458-530`. The order of
`np.unique` does not matter, since each type sets its own entries. -/
def choosePass (apps : List AppInfo) (owned : Nat → Nat → Bool) (always : Bool) (dict : ProfilesDict (List Rat)) (draw : Nat → Nat → Nat) (s : ProfileChoice) : Except PyErr ProfileChoice :=
  let concerned := fun a : AppInfo => (dict.get a.type).isSome && (decide (a.activity ∈ alwaysOn) == always)
  let s := { s with varLoad := fun a => ((apps[a]?).map concerned).getD false || s.varLoad a }
  ((apps.filter concerned).map (·.type)).dedup.foldlM (chooseType apps owned dict draw) s

/-- The values of `real_profiles_algo`, `appliance_simulators.py:310-379`. -/
inductive ProfileAlgo where
  | nothing
  | onlyAlwaysOn
  | onlySwitchedOn
  | uniform
  | unknown
deriving DecidableEq

/-- `sample_real_load_profiles`, `appliance_simulators.py:310-379`; `switchedOn` and `full` are the two dictionaries of profiles, with their draws. -/
def chooseProfiles (apps : List AppInfo) (owned : Nat → Nat → Bool) (switchedOn full : ProfilesDict (List Rat)) (draw draw' : Nat → Nat → Nat) : ProfileAlgo → Except PyErr ProfileChoice
  | .nothing => .ok .none'
  | .onlyAlwaysOn => choosePass apps owned true full draw' .none'
  | .onlySwitchedOn => choosePass apps owned false switchedOn draw .none'
  | .uniform => do
    let s ← choosePass apps owned false switchedOn draw .none'
    choosePass apps owned true full draw' s
  | .unknown => .error .valueError

/-- `_initialize_real_loads` for an appliance that is off and has a profile of length `duration`, `appliance_simulators.py:532-551`: `np.random.randint(1, duration)`, `u` is what is drawn above 1. -/
def initialSteps (alwaysOn : Bool) (duration u : Nat) : Except PyErr Nat :=
  if duration > 0 && alwaysOn then (if 1 < duration then .ok (1 + u % (duration - 1)) else .error .valueError) else .ok 0

/-! ## `_remove_non_compatible_appliances` -/

/-- `ActivityApplianceSimulator._remove_non_compatible_appliances`, `appliance_simulators.py:1338-1373`. `flags` says whether the dictionary has the key `'probabilistic'`. -/
def removeIncompatible (flags : Bool) (activities : List Str) (apps : List AppInfo) : List AppInfo :=
  apps.filter fun a => decide (a.activity ∈ activities ++ alwaysOn) && (!flags || !a.probabilistic)

/-- The dictionary with the array `'probabilistic'` negated, `appliance_simulators.py:1604-1609`. -/
def negateFlags (apps : List AppInfo) : List AppInfo := apps.map fun a => { a with probabilistic := !a.probabilistic }

/-- `ProbabiliticActivityAppliancesSimulator._remove_non_compatible_appliances`, `appliance_simulators.py:1589-1612`: the appliances kept, and what the dictionary that the loader returned contains
afterwards: its array is replaced by its negation. Without the key all the appliances are taken as probabilistic. -/
def removeIncompatibleProb (flags : Bool) (activities : List Str) (apps : List AppInfo) : List AppInfo × List AppInfo :=
  let apps := if flags then apps else apps.map fun a => { a with probabilistic := true }
  let changed := negateFlags apps
  (negateFlags (removeIncompatible true activities changed), changed)

/-! ## `sample_switch_on_probs` -/

/-- `x / y` of numpy for a number that is not negative: `none` for the division by zero (infinite, or not a number) (`appliance_simulators.py:1693-1746`). -/
def npDiv (x y : Rat) : Option Rat := if y = 0 then none else some (x / y)

/-- The number of steps in a year, `appliance_simulators.py:1679-1681`; `step` is in seconds. -/
def stepsPerYear (step : Rat) : Rat := 36525 / 100 * 24 * 60 * 60 / step

/-- `np.dot(pdf, np.arange(len(pdf)))`, `appliance_simulators.py:1709-1713`; `k` is the first number. -/
def meanFrom (k : Nat) : List Rat → Rat
  | [] => 0
  | p :: ps => p * k + meanFrom (k + 1) ps

/-- One round of the loop over the activities, `appliance_simulators.py:1675-1722`; `target` is the target of the appliance. -/
def switchOnRound (year residents : Rat) (starts : List Rat) (activity : Str) (mean : Rat) (a : AppInfo) (target : Rat) (old : Option Rat) : Option Rat :=
  let p := if a.activity = activity then npDiv target (max (year * mean - a.meanDuration * target) 1) else old
  if a.previousActivity = some activity then npDiv target (36525 / 100 * meanFrom 0 starts * residents) else p

/-- The loop over the activities, `appliance_simulators.py:1674-1722`: `KeyError` for an activity without starts. `probs` are the activities with the mean of their probabilities. -/
def switchOnActivities (year residents : Rat) (starts : List (Str × List Rat)) (apps : List (AppInfo × Rat)) : List (Str × Rat) → List (Option Rat) → Except PyErr (List (Option Rat))
  | [], acc => .ok acc
  | (act, mean) :: rest, acc => do
    match lookupA starts act with
    | none => .error .keyError
    | some st => switchOnActivities year residents starts apps rest (List.zipWith (fun q old => switchOnRound year residents st act mean q.1 q.2 old) apps acc)

/-- The loop over the previous types, `appliance_simulators.py:1724-1749`. An appliance has one previous type: the order does not matter. -/
def switchOnTypes (apps : List (AppInfo × Rat)) (acc : List (Option Rat)) : List (Option Rat) :=
  List.zipWith (fun q old =>
    match q.1.previousType with
    | none => old
    | some T => if T ∈ apps.map (fun r => r.1.type) then npDiv q.2 ((apps.filter fun r => decide (r.1.type = T)).map (·.2)).sum else old) apps acc

/-- `sample_switch_on_probs`, `appliance_simulators.py:1614-1751`, for the households of a subgroup: the probability of each appliance. `residents` is `n_residents`, or 2.3 (lines 1648-1652);
`dict` is the result of `load_yearly_target_switchons`, `probs` that of `load_activity_probabilities` (with the mean over the day) and `starts` that of `load_daily_activity_starts`. -/
def switchOnProbs (step : Rat) (nResidents : Option Rat) (dict : List (Str × Rat)) (probs : List (Str × Rat)) (starts : List (Str × List Rat)) (apps : List AppInfo) : Except PyErr (List (Option Rat)) := do
  let targets ← getOwnership (apps.map (·.type)) dict (apps.map (·.targetSwitchons))
  let q := List.zip apps targets
  let acc ← switchOnActivities (stepsPerYear step) (nResidents.getD (23 / 10)) starts q probs (apps.map fun _ => some 0)
  .ok (switchOnTypes q acc)

/-! ## `OccupancyApplianceSimulator.get_switchon_probs` -/

/-- `set_activity_pdf`, `appliance_simulators.py:1011-1056`: for each subgroup and activity label the profile, a row per time and in it a value per number of active occupants. A missing activity raises `ValueError`.
The labels are in the order of their last appearance instead of sorted: they are only used with the positions of `activities_inverse`. -/
def activityPdf (apps : List AppInfo) (profiles : Subgroup → List (Str × List (List Rat))) (subs : List Subgroup) : Except PyErr (List (List (List (List Rat)))) :=
  subs.mapM fun s => (apps.map (·.activity)).dedup.mapM fun act =>
    match lookupA (profiles s) act with
    | some x => .ok x
    | none => .error .valueError

/-- One entry of `get_switchon_probs`, `appliance_simulators.py:1181-1214`, with `np.moveaxis` and `_create_activities_labels`, `appliance_simulators.py:996-1002, 1053-1056`: the entry of the profile of the subgroup of the household and
the activity of the appliance, at row `t` and for the number of active occupants; `IndexError` beyond the profiles. -/
def switchonProb (apps : List AppInfo) (pdf : List (List (List (List Rat)))) (hhTypes : List Nat) (t : Nat) (occupancy : Nat) (available : Bool) (h : Nat) (a : AppInfo) : Except PyErr Rat := do
  let k ← pyGet hhTypes h
  let byAct ← pyGet pdf k
  let profile ← pyGet byAct ((apps.map (·.activity)).dedup.idxOf a.activity)
  let row ← pyGet profile t
  let p ← pyGet row occupancy
  .ok ((if available then 1 else 0) * a.switchOnProb * p)

end Demod
