import Verif.Model.Equip
import Verif.Model.Appliance
import Verif.Model.Markov

/-!
# The whole `OccupancyApplianceSimulator` (`demod/simulators/appliance_simulators.py` 848-1252)

Construction, steps and getters with their arrays of households and appliances; `Model/Appliance.lean` follows one appliance of one household. `profiles` is
`data.load_activity_probability_profiles`, a pure function of the subgroup. The random draws are arguments. The step size is that of the data, one minute.
-/

namespace Demod

/-- The entries of the appliance dictionary at one position, `appliance_simulators.py:38-100`: those of `AppInfo` and those used in the steps. -/
structure AppData where
  info : AppInfo
  standby : Rat
  meanPower : Rat
  usesWater : Bool
  flow : Rat
  delay : Nat
  switchOff : Bool

/-- `np.where(mask)` for a matrix: the positions of `True`, row by row. (`appliance_simulators.py:1244-1246`) -/
def trueAt (mask : List (List Bool)) : List (Nat × Nat) :=
  mask.zipIdx.flatMap fun r => (r.1.zipIdx.filter fun q => q.1).map fun q => (r.2, q.2)

/-- `m[h, a] = v`. (`appliance_simulators.py:1095-1102`) -/
def setEntry {α : Type} (m : List (List α)) (q : Nat × Nat) (v : α) : List (List α) := m.set q.1 ((m.getD q.1 []).set q.2 v)

/-- `m[hs, as] = vs`. (`appliance_simulators.py:1095-1102`) -/
def setEntries {α : Type} (m : List (List α)) (at' : List (Nat × Nat)) (vs : List α) : List (List α) := (at'.zip vs).foldl (fun m q => setEntry m q.1 q.2) m

/-! ## Power, from the arrays and the usage -/

/-- `_get_variable_loads_consumptions`, `appliance_simulators.py:747-784`, of a simulator with these appliances, load profiles, steps left and usage: a loop over the types of the appliances in use. -/
def variableLoadsOf (apps : List AppData) (choice : ProfileChoice) (left : List (List Rat)) (usage : List (List Bool)) : Except PyErr (List (List Rat)) := do
  let mask := usage.map fun r => r.zipIdx.map fun q => q.1 && choice.varLoad q.2
  let used := trueAt mask
  let typed : List ((Nat × Nat) × Str) ← used.mapM fun q => (pyGet apps q.2).map fun x => (q, x.info.type)
  let zeros := left.map fun r => r.map fun _ => (0 : Rat)
  (typed.map fun q => q.2).dedup.foldlM (fun m T => do
    let here := (typed.filter fun q => decide (q.2 = T)).map fun q => q.1
    let loads ← match choice.loads T with
      | some x => Except.ok x
      | none => .error .keyError
    let vs ← here.mapM fun q => do
      let row ← pyGet loads (choice.id q.1 q.2)
      pyGetInt row (truncRat (choice.duration q.1 q.2 - (left.getD q.1 []).getD q.2 0))
    .ok (setEntries m here vs)) zeros

/-- `get_current_power_consumptions`, `appliance_simulators.py:673-701`, of a simulator with these appliances, load profiles, ownership, steps left and usage. -/
def powersOf (apps : List AppData) (choice : ProfileChoice) (owned : List (List Bool)) (left : List (List Rat)) (usage : List (List Bool)) : Except PyErr (List (List Rat)) := do
  let variable' : List (List Rat) ← variableLoadsOf apps choice left usage
  .ok ((usage.zip (owned.zip variable')).map fun r => (r.1.zip (r.2.1.zip (r.2.2.zip apps))).zipIdx.map fun q =>
    let used := q.1.1
    let x := q.1.2.2.2
    (if used then 0 else 1) * x.standby * (if q.1.2.1 then 1 else 0) + (if used then 1 else 0) * x.meanPower * (if choice.varLoad q.2 then 0 else 1) + q.1.2.2.1)

/-- `sample_durations`, `appliance_simulators.py:703-744`, of a simulator with these appliances and load profiles; `v` is the stream of `np.random.poisson`. Durations are rationals: `mean_duration` is taken as an array of floats,
and a fixture without flow would last forever. -/
def durationsOf (apps : List AppData) (choice : ProfileChoice) (v : Nat → Nat) (at' : List (Nat × Nat)) : Except PyErr (List Rat) := do
  let xs : List AppData ← at'.mapM fun q => pyGet apps q.2
  let durations := xs.map fun x => x.info.meanDuration
  let water := xs.map fun x => x.usesWater
  let flows := gather water (xs.map fun x => x.flow)
  let durations := scatter water durations (flows.zipIdx.map fun q => (v q.2 : Rat) / q.1)
  let real := at'.map fun q => choice.duration q.1 q.2
  .ok ((durations.zip real).map fun q => if q.2 > 0 then (q.2 : Rat) else q.1)

/-- The random draws of a step (`appliance_simulators.py:1216-1252`): a number per household and appliance, and the streams of `np.random.poisson` in `sample_durations` (of which nothing remains) and in
`_switch_on_water_fixtures`. -/
structure OccDraws where
  u : Nat → Nat → Rat
  unused : Nat → Nat
  volume : Nat → Nat

/-- The instance variables of the simulator (`appliance_simulators.py:109-170, 913-1056`). `pdf` are the profiles behind `activities_pdf_iterator`, of which `pos` rows have been taken, `current` the profiles and the row of
`current_activity_pdf`. -/
structure OccSim where
  apps : List AppData
  owned : List (List Bool)
  choice : ProfileChoice
  subgroups : List Subgroup
  hhTypes : List Nat
  left : List (List Rat)
  till : List (List Int)
  pdf : List (List (List (List Rat)))
  pos : Nat
  current : Option (List (List (List (List Rat))) × Nat)
  time : Int

namespace OccSim

/-- `self.appliances[…][a]` for an index of `np.where`. (`appliance_simulators.py:1079-1131`) -/
def app (s : OccSim) (a : Nat) : Except PyErr AppData := pyGet s.apps a

/-- `update_subgroups_with_time` and `set_activity_pdf`, `appliance_simulators.py:1011-1077`. The subgroups are distinguished by week days and week-ends, the default of `add_time`; the dictionaries of the user are modified.
Without appliances `np.moveaxis` raises a `ValueError`. -/
def loadDay (profiles : Subgroup → List (Str × List (List Rat))) (s : OccSim) (t : Int) : Except PyErr OccSim := do
  let subgroups ← s.subgroups.mapM fun g => addTime g t true false false false
  let pdf ← activityPdf (s.apps.map (·.info)) profiles subgroups
  if s.apps = [] then .error .valueError else .ok { s with subgroups := subgroups, pdf := pdf, pos := 0 }

/-- The number of rows of the profiles: the second axis of the array, `appliance_simulators.py:1053-1056`. -/
def nRows (pdf : List (List (List (List Rat)))) : Nat := ((pdf.head?.bind (·.head?)).map List.length).getD 0

/-- `next(self.activities_pdf_iterator)`, `appliance_simulators.py:1237-1240`: `StopIteration` for profiles without rows. -/
def nextRow (s : OccSim) : Except PyErr OccSim :=
  if nRows s.pdf = 0 then .error .stopIteration else .ok { s with current := some (s.pdf, s.pos % nRows s.pdf), pos := s.pos + 1 }

/-- `get_mask_available_appliances`, `appliance_simulators.py:553-569`. -/
def available (s : OccSim) (h a : Nat) : Bool :=
  ((s.owned.getD h []).getD a false) && decide ((s.left.getD h []).getD a 0 ≤ 0) && decide ((s.till.getD h []).getD a 0 ≤ 0)

/-- `get_switchon_probs`, `appliance_simulators.py:1181-1214`. Without `current_activity_pdf` `AttributeError`. -/
def probs (s : OccSim) (occ : List Nat) : Except PyErr (List (List Rat)) :=
  match s.current with
  | none => .error .attributeError
  | some (pdf, row) => (List.range s.hhTypes.length).mapM fun h => (List.range s.apps.length).mapM fun a => do
      let n ← pyGet occ h
      let x ← s.app a
      switchonProb (s.apps.map (·.info)) pdf s.hhTypes row n (s.available h a) h x.info

/-- `sample_durations`, `appliance_simulators.py:703-744`. -/
def sampleDurations (s : OccSim) (v : Nat → Nat) (at' : List (Nat × Nat)) : Except PyErr (List Rat) := durationsOf s.apps s.choice v at'

/-- `_switch_on_water_fixtures`, `appliance_simulators.py:1109-1131`. -/
def switchOnWater (s : OccSim) (v : Nat → Nat) (at' : List (Nat × Nat)) : Except PyErr OccSim := do
  let xs : List AppData ← at'.mapM fun q => s.app q.2
  let durations := xs.zipIdx.map fun q => (v q.2 : Rat) / q.1.flow
  let delays := xs.map fun x => x.delay
  .ok { s with left := setEntries s.left at' durations, till := setEntries s.till at' ((durations.zip delays).map fun q => truncRat (q.1 + q.2)) }

/-- `switch_on`, `appliance_simulators.py:1079-1107`. -/
def switchOn (s : OccSim) (d : OccDraws) (at' : List (Nat × Nat)) : Except PyErr OccSim := do
  let durations : List Rat ← s.sampleDurations d.unused at'
  let xs : List AppData ← at'.mapM fun q => s.app q.2
  let s : OccSim := { s with left := setEntries s.left at' durations, till := setEntries s.till at' ((durations.zip (xs.map fun x => x.delay)).map fun q => truncRat (q.1 + q.2)) }
  s.switchOnWater d.volume (((at'.zip xs).filter fun q => q.2.usesWater).map fun q => q.1)

/-- `switch_off_inactive`, `appliance_simulators.py:1133-1153`: the values for the delays are gathered by rows and columns and put back by the mask. -/
def switchOff (s : OccSim) (occ : List Nat) : OccSim :=
  let rows := occ.map fun n => decide (n = 0)
  let columns := s.apps.map fun x => x.switchOff
  let mask := rows.map fun r => columns.map fun c => r && c
  let values := ((rows.zip s.till).filter fun q => q.1).flatMap fun r =>
    ((columns.zip (r.2.zip (s.apps.map fun x => x.delay))).filter fun q => q.1).map fun q => min q.2.1 (q.2.2 : Int)
  { s with left := setEntries s.left (trueAt mask) ((trueAt mask).map fun _ => 0), till := setEntries s.till (trueAt mask) values }

/-- `update_iteration_variables`, `appliance_simulators.py:655-659`. -/
def decrement (s : OccSim) : OccSim :=
  { s with left := s.left.map fun r => r.map fun x => if x > 0 then x - 1 else x, till := s.till.map fun r => r.map fun x => if x > 0 then x - 1 else x }

/-- `step`, `appliance_simulators.py:1216-1252`, with its callback (`base_simulators.py:896-899`, `appliance_simulators.py:1004-1009`), `AppliancesSimulator.step` (642-653) and the clock. -/
def step (profiles : Subgroup → List (Str × List (List Rat))) (refresh : Int) (s : OccSim) (occ : List Nat) (d : OccDraws) : Except PyErr OccSim := do
  let s ← if firesBeforeRefresh refresh s.time 60000000 then s.loadDay profiles (s.time + 60000000) else .ok s
  if occ.length ≠ s.hhTypes.length then .error .assertionError
  else do
    let s ← if PdfClock.minute s.time % 10 = 0 then s.nextRow else .ok s
    let p : List (List Rat) ← s.probs occ
    let on := p.zipIdx.map fun r => r.1.zipIdx.map fun q => decide (d.u r.2 q.2 < q.1)
    let s ← s.switchOn d (trueAt on)
    let s := (s.switchOff occ).decrement
    .ok { s with time := s.time + 60000000 }

/-- Several steps. (`appliance_simulators.py:1216-1252`) -/
def run (profiles : Subgroup → List (Str × List (List Rat))) (refresh : Int) : OccSim → List (List Nat × OccDraws) → Except PyErr OccSim
  | s, [] => .ok s
  | s, i :: is => do
    let s ← s.step profiles refresh i.1 i.2
    run profiles refresh s is

/-- The arguments of the constructor besides the data (`appliance_simulators.py:913-954`, `117-137`), and the random draws of `sample_available_appliances`, `sample_real_load_profiles` and of the initial delays
(`np.random.randint(0, delay)`, `appliance_simulators.py:160-166`). -/
structure OccArgs where
  equip : EquipAlgo
  real : ProfileAlgo
  initial : Option (List Nat)
  uOwned : Nat → Nat → Rat
  draw : Nat → Nat → Nat
  draw' : Nat → Nat → Nat
  delay : Nat → Nat → Nat

/-- `__init__` and `initialize_starting_state`, `appliance_simulators.py:913-981, 109-170`, with `_initialize_real_loads` (983-994), which finds no appliance in use, and `TimeAwareSimulator.initialize_starting_state`,
`base_simulators.py:725-793`. `e` are the draws of the steps of the initialisation. -/
def create (apps : List AppData) (profiles : Subgroup → List (Str × List (List Rat))) (switchedOn full : ProfilesDict (List Rat)) (refresh dataStep : Int)
    (groups : List Subgroup) (ns : List Nat) (stepSize : Option Int) (start : Int) (args : OccArgs) (e : Nat → OccDraws) : Except PyErr OccSim := do
  let n := ns.sum
  let parsed : List Subgroup × List Nat ← parseHouseholds n (some groups) (some ns)
  if stepSize.getD dataStep ≠ dataStep then .error .valueError
  else if n = 0 then .error .valueError
  else do
    let owned : List (List Bool) ← sampleAvailable (apps.map (·.info)) parsed.1 parsed.2 args.uOwned args.equip
    let choice ← chooseProfiles (apps.map (·.info)) (fun h a => (owned.getD h []).getD a false) switchedOn full args.draw args.draw' args.real
    let s : OccSim := { apps := apps, owned := owned, choice := choice, subgroups := parsed.1, hhTypes := parsed.2, left := [], till := [], pdf := [], pos := 0, current := none, time := start }
    let s ← s.loadDay profiles start
    let s : OccSim := { s with left := owned.map fun r => r.map fun _ => 0, till := (List.range n).map fun h => apps.zipIdx.map fun q => if q.1.delay > 0 then ((args.delay h q.2 % q.1.delay : Nat) : Int) else 0 }
    let initDt ← initDatetime start (.time refresh)
    let delta := start - initDt
    run profiles refresh { s with time := initDt + delta.fmod 60000000 } ((List.range (delta.tdiv 60000000).toNat).map fun k => (args.initial.getD (List.replicate n 1), e k))

/-! ## Getters -/

/-- `get_current_usage`, `appliance_simulators.py:661-671`. -/
def usage (s : OccSim) : List (List Bool) := (s.left.zip s.owned).map fun r => (r.1.zip r.2).map fun q => decide (q.1 > 0) && q.2

/-- `_get_variable_loads_consumptions`, `appliance_simulators.py:747-784`. -/
def variableLoads (s : OccSim) : Except PyErr (List (List Rat)) := variableLoadsOf s.apps s.choice s.left s.usage

/-- `get_current_power_consumptions`, `appliance_simulators.py:673-701`. -/
def powers (s : OccSim) : Except PyErr (List (List Rat)) := powersOf s.apps s.choice s.owned s.left s.usage

/-- `get_power_demand`, `appliance_simulators.py:786-788`, also `get_thermal_gains` and `get_energy_consumption` (790-798). -/
def powerDemand (s : OccSim) : Except PyErr (List Rat) := do
  let p : List (List Rat) ← s.powers
  .ok (p.map List.sum)

/-- `get_current_water_consumptions`, `appliance_simulators.py:1155-1178`. -/
def water (s : OccSim) : List (List Rat) :=
  s.left.map fun r => (r.zip s.apps).map fun q => (if q.1 ≥ 1 then 1 else 0) * q.2.flow + q.1 * (if q.1 > 0 ∧ q.1 < 1 then 1 else 0) * q.2.flow

/-- `get_dhw_heating_demand`, `appliance_simulators.py:819-845`. -/
def dhwDemand (s : OccSim) : List Rat := s.water.map Appl.dhwDemand

end OccSim

end Demod
