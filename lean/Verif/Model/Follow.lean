import Verif.Model.Equip

/-!
# Appliances that follow activities and other appliances (`ProbabiliticActivityAppliancesSimulator`)

The step of the simulator for all households and appliances at once. `n_steps_till_refresh` has no effect on what is switched on here and is left out
(it is part of `Model/Appliance.lean`, which follows one appliance). Durations and draws are arguments.
-/

namespace Demod

/-- What the simulator is built with, `appliance_simulators.py:1542-1586`: the appliances, `available_appliances`, `switch_on_probs`, `inactive_switch_off`, and whether the
appliances have the keys `'previous_appliance_type'` and `'previous_activity'`. -/
structure ProbSim where
  households : Nat
  apps : List AppInfo
  owned : Nat → Nat → Bool
  prob : Nat → Nat → Rat
  switchOff : Nat → Bool
  hasType : Bool
  hasActivity : Bool

/-- The state: `n_steps_left`, `previous_act_dict`, and the cached value of `get_current_usage` (`appliance_simulators.py:1753-1762`). -/
structure FollowState where
  left : Nat → Nat → Rat
  previous : List (Str × (Nat → Nat))
  cache : Option (Nat → Nat → Bool)

/-- The inputs and draws of a step (`appliance_simulators.py:1764-1848`): the activities; the draws for the candidates of `_get_start_after_appliance` in order, those of `_get_start_after_activity` and those of the loop for each activity;
the duration drawn for each appliance (`sample_durations` or the length of the profile). -/
structure FollowInput where
  activities : List (Str × (Nat → Nat))
  uType : Nat → Rat
  uEnd : Str → Nat → Nat → Rat
  uAct : Str → Nat → Nat → Rat
  duration : Nat → Nat → Rat

namespace ProbSim

/-- `np.where(previous_appliance_type != 'nan')`, `appliance_simulators.py:1926-1928`. -/
def followers (m : ProbSim) : List Nat := (List.range m.apps.length).filter fun a => ((m.apps[a]?).bind (·.previousType)).isSome

/-- `_assign_dictated_start`, `appliance_simulators.py:1575-1586`. -/
def dictated (m : ProbSim) (a : Nat) : Bool :=
  (m.hasType && ((m.apps[a]?).bind (·.previousType)).isSome) || (m.hasActivity && ((m.apps[a]?).bind (·.previousActivity)).isSome)

/-- The comparison of line 1934-1938 for one pair: the previous type of appliance `f` is the type of appliance `b` (`appliance_simulators.py:1934-1938`). -/
def followsOn (m : ProbSim) (f b : Nat) : Bool := decide ((m.apps[f]?).bind (·.previousType) = (m.apps[b]?).map (·.type))

/-- `_get_start_after_appliance` up to the draws, `appliance_simulators.py:1916-1947`. The loop `for app_id in new_app_id` goes through the tuple that `np.where` returns, so it runs once, with the array of all the followers:
what follows is numpy's broadcasting of that array with the array of the stopped appliances. A comparison of arrays that do not fit is taken as `ValueError`. -/
def startAfter (m : ProbSim) (stopped : List (Nat × Nat)) : Except PyErr (List (Nat × Nat)) :=
  let ids := m.followers
  if ids.length ≠ stopped.length ∧ ids.length ≠ 1 ∧ stopped.length ≠ 1 then .error .valueError
  else
    let mask : List Bool := match ids, stopped with
      | [f], _ => stopped.map fun s => m.followsOn f s.2
      | _, [s] => ids.map fun f => m.followsOn f s.2
      | _, _ => List.zipWith (fun f s => m.followsOn f s.2) ids stopped
    let k := mask.countP fun b => b
    if ids.length ≠ 1 ∧ k ≠ 1 ∧ ids.length ≠ k then .error .valueError
    else
      let app := match ids with
        | [f] => List.replicate k f
        | _ => ids
      if mask.length ≠ stopped.length then .error .indexError
      else
        let hh := (List.zip stopped mask).filterMap fun p => if p.2 then some p.1.1 else none
        if app.length ≠ hh.length then .error .indexError else .ok (List.zip hh app)

/-- The appliances that reach the end of their use, in the order of `np.where`, `appliance_simulators.py:1783-1790`. -/
def stopping (m : ProbSim) (left : Nat → Nat → Rat) : List (Nat × Nat) :=
  (List.range m.households).flatMap fun h => ((List.range m.apps.length).filter fun a => decide (left h a > 0 ∧ ¬ left h a - 1 > 0)).map fun a => (h, a)

/-- `get_current_usage`, `appliance_simulators.py:661-671`. -/
def usage (m : ProbSim) (left : Nat → Nat → Rat) (h a : Nat) : Bool := decide (left h a > 0) && m.owned h a

/-- `switch_on` for those of a mask, `appliance_simulators.py:571-636`. -/
def startWhere (m : ProbSim) (duration : Nat → Nat → Rat) (p : Nat → Nat → Bool) (left : Nat → Nat → Rat) : Nat → Nat → Rat :=
  fun h a => if decide (h < m.households) && decide (a < m.apps.length) && p h a then duration h a else left h a

/-- The position of activity of an appliance (`appliance_simulators.py:1800`). -/
def hasAct (m : ProbSim) (a : Nat) (act : Str) : Bool := decide ((m.apps[a]?).map (·.activity) = some act)

/-- One activity of the loop, `appliance_simulators.py:1798-1844`. The state is the array `left` and the cached usage. -/
def actRound (m : ProbSim) (previous : List (Str × (Nat → Nat))) (i : FollowInput) (act : Str) (n : Nat → Nat) (left : Nat → Nat → Rat) (cache : Option (Nat → Nat → Bool)) :
    Except PyErr ((Nat → Nat → Rat) × Option (Nat → Nat → Bool)) :=
  if ¬ (∃ x ∈ m.apps, x.activity = act) then .ok (left, cache)
  else
    match lookupA previous act with
    | none => .error .keyError
    | some prev =>
      let stops := fun h => decide (prev h ≠ n h) && decide (n h = 0)
      let left1 := fun h a => if stops h && m.hasAct a act && m.switchOff a then 0 else left h a
      let used := cache.getD (m.usage left1)
      let left2 := if m.hasActivity then
        m.startWhere i.duration (fun h a => stops h && decide ((m.apps[a]?).bind (·.previousActivity) = some act) && !used h a && decide (i.uEnd act h a < m.prob h a)) left1
        else left1
      let left3 := m.startWhere i.duration (fun h a => decide (n h > 0) && m.hasAct a act && !used h a && !m.dictated a && decide (i.uAct act h a < m.prob h a)) left2
      .ok (left3, some used)

/-- The loop over the activities, `appliance_simulators.py:1798-1844`. -/
def actLoop (m : ProbSim) (previous : List (Str × (Nat → Nat))) (i : FollowInput) : List (Str × (Nat → Nat)) → (Nat → Nat → Rat) → Option (Nat → Nat → Bool) → Except PyErr (Nat → Nat → Rat)
  | [], left, _ => .ok left
  | (act, n) :: rest, left, cache => do
    let r ← m.actRound previous i act n left cache
    m.actLoop previous i rest r.1 r.2

/-- `step`, `appliance_simulators.py:1764-1848`; `_compute_switch_on_probs_for_one_time`, 1874-1885, and the draws of 1948-1956. -/
def step (m : ProbSim) (s : FollowState) (i : FollowInput) : Except PyErr FollowState := do
  let dec := fun h a => if s.left h a > 0 then s.left h a - 1 else s.left h a
  let r ← if m.hasType then do
      let cands ← m.startAfter (m.stopping s.left)
      let used := s.cache.getD (m.usage dec)
      let starts := fun h a => (List.range cands.length).any fun j => decide (cands[j]? = some (h, a)) && !used h a && decide (i.uType j < m.prob h a)
      pure (m.startWhere i.duration starts dec, some used)
    else pure (dec, s.cache)
  let left ← m.actLoop s.previous i i.activities r.1 r.2
  return { left := left, previous := i.activities, cache := none }

end ProbSim

end Demod
