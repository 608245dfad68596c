import Verif.Model.ProbActSim
import Verif.Spec.ActSim
import Verif.Spec.Follow

/-! # Specifications for the simulation of the appliances that are used at random with the activities -/

namespace Demod

/-- The use of an appliance: `some (k, d)` in the step `k` (from 0) of a use that lasts `d` steps, `none` when it is off. -/
abbrev Use := Option (Nat × Rat)

/-- The use ends with the next step. -/
def Use.Ends (u : Use) : Prop := ∃ k d, u = some (k, d) ∧ d ≤ k + 1

/-- `d` is the duration of a use: the length of the load profile, for water fixtures the time to draw some volume, else the mean duration. -/
def UseLasts (A : Appl) (d : Rat) : Prop :=
  (0 < A.loadDuration → d = A.loadDuration) ∧ (A.loadDuration = 0 → A.usesWater = true → ∃ v : Nat, d = v / A.flow) ∧ (A.loadDuration = 0 → A.usesWater = false → d = A.meanDuration)

/-- The households: either nothing is said of their groups, or there are as many as the numbers for the groups say. -/
def HouseholdsAre (n : Nat) (groups : Option (List Subgroup)) (ns : Option (List Nat)) (gs : List Subgroup) (counts : List Nat) : Prop :=
  (groups = none ∧ ns = none ∧ gs = [[]] ∧ counts = [n]) ∨ (groups = some gs ∧ ns = some counts ∧ counts.sum = n ∧ counts.length ≤ gs.length)

/-- The appliances that are simulated: those whose activity is given or that are always on; if there are such marks (`flags`), only those marked as probabilistic. -/
def probApps (flags : Bool) (acts : Activities) (apps : List AppData) : List AppData :=
  apps.filter fun x => decide ((x.info.activity ∈ acts.map Prod.fst ∨ x.info.AlwaysOn) ∧ (flags = true → x.info.probabilistic = true))

/-- In household `h` somebody performed the activity in the step before and nobody does now. -/
def ActStops (prev now : Activities) (act : Str) (h : Nat) : Prop := 0 < prev.performing act h ∧ now.performing act h = 0

/-- All the uniform draws are numbers from 0 on. -/
structure ProbDrawsOk (d : ProbDraws) : Prop where
  type : ∀ j, 0 ≤ d.uType j
  stop : ∀ act j, 0 ≤ d.uEnd act j
  act : ∀ act j, 0 ≤ d.uAct act j

/-- The appliance follows nothing, somebody performs its activity, and its draw is below its probability. -/
def WithActivity (now : Activities) (d : ProbDraws) (h : Nat) (x : AppData) (p : Rat) (own : Nat) : Prop :=
  x.info.previousType = none ∧ x.info.previousActivity = none ∧ 0 < now.performing x.info.activity h ∧ d.uAct x.info.activity own < p

/-- The appliance follows the use of a type of appliances, and such a use ends in the household. -/
def AfterUse (apps : List AppData) (use : Nat → Use) (x : AppData) : Prop := ∃ (b : Nat) (y : AppData), apps[b]? = some y ∧ x.info.previousType = some y.info.type ∧ (use b).Ends

/-- What may start a use: its activity, the end of a use of the type that it follows, or the end of the activity that it follows, with a draw below its probability. -/
def MayStart (apps : List AppData) (use : Nat → Use) (prev now : Activities) (d : ProbDraws) (h : Nat) (x : AppData) (p : Rat) (own : Nat) : Prop :=
  WithActivity now d h x p own ∨ (AfterUse apps use x ∧ ∃ j, d.uType j < p) ∨ ∃ B, x.info.previousActivity = some B ∧ ActStops prev now B h ∧ ∃ j, d.uEnd B j < p

/-- What starts a use for sure: its activity with a draw below its probability; the end of what it follows, if all draws are below its probability and it is not switched off in the same step. The end of an activity counts
only if it is the activity of some appliance. -/
def MustStart (apps : List AppData) (use : Nat → Use) (prev now : Activities) (d : ProbDraws) (h : Nat) (x : AppData) (p : Rat) (own : Nat) : Prop :=
  WithActivity now d h x p own ∨ (¬ (x.switchOff = true ∧ ActStops prev now x.info.activity h) ∧ ((AfterUse apps use x ∧ ∀ j, d.uType j < p) ∨
    ∃ B, x.info.previousActivity = some B ∧ ActStops prev now B h ∧ (∃ y ∈ apps, y.info.activity = B) ∧ ∀ j, d.uEnd B j < p))

/-- A step takes the use `u` of an appliance to `u'`: a use goes on until it ends, unless the appliance is switched off with its activity; when it is off, or its use ends, a use begins if it must and only if it may, except that
no use begins when another ends if the getters were called since the last step. The simulator also simulates the appliances that are not owned, which other appliances may follow: a new use of them may begin during another. -/
structure UseStep (A : Appl) (observed : Bool) (off may must : Prop) (u u' : Use) : Prop where
  goesOn : ∀ k d, u = some (k, d) → (k + 1 : Rat) < d → (A.owned = true ∨ ¬ may) → ¬ (A.switchOff = true ∧ off) → u' = some (k + 1, d)
  goesOff : ∀ k d, u = some (k, d) → (k + 1 : Rat) < d → (A.owned = true ∨ ¬ may) → A.switchOff = true → off → u' = none
  rests : u.Ends → A.owned = true → observed = true → u' = none
  begins : u = none ∨ (u.Ends ∧ (observed = false ∨ A.owned = false)) → u' = none ∨ (may ∧ ∃ d, 0 < d ∧ UseLasts A d ∧ u' = some (0, d))
  must : u = none ∨ (u.Ends ∧ observed = false) → A.owned = true → must → ∃ d, UseLasts A d ∧ u' = if 0 < d then some (0, d) else none
  again : ∀ k d, u = some (k, d) → (k + 1 : Rat) < d → A.owned = false → u' = none ∨ u' = some (k + 1, d) ∨ (may ∧ ∃ d', 0 < d' ∧ UseLasts A d' ∧ u' = some (0, d'))

/-- The power of an appliance: none if it is not owned, its standby power when it is off, its mean power when it is in use without a load profile, and otherwise the sample of its profile for the step of its use. -/
structure UseConsumes (A : Appl) (u : Use) (w : Rat) : Prop where
  absent : A.owned = false → w = 0
  standby : A.owned = true → u = none → w = A.standby
  constant : ∀ k d, A.owned = true → u = some (k, d) → A.varLoad = false → w = A.meanPower
  profile : ∀ k d, A.owned = true → u = some (k, d) → A.varLoad = true → k < A.loadDuration ∧ A.row[k]? = some w

/-- The probabilities of use of the appliances of a household of subgroup `g`: as computed from the data and the number of residents of the subgroup, where without a finite value all draws (if there is a target) or none
are below. -/
def ProbsOf (data : Subgroup → ActStats) (step : Rat) (apps : List AppInfo) (g : Subgroup) (row : Nat → Rat) : Prop :=
  ∃ (residents : Option Rat) (targets : List Rat) (out : List (Option Rat)),
    (∀ k : Int, g.at kNResidents = some (SubVal.int k) → residents = some (k : Rat)) ∧ (g.at kNResidents = none → residents = none) ∧
    getOwnership (apps.map (·.type)) (data g).targets (apps.map (·.targetSwitchons)) = .ok targets ∧
    switchOnProbs step residents (data g).targets (data g).probs (data g).starts apps = .ok out ∧
    ∀ (a : Nat) (x : AppInfo), apps[a]? = some x → ∃ t, targets[a]? = some t ∧
      ((∃ p, out[a]? = some (some p) ∧ row a = p) ∨ (out[a]? = some none ∧ row a = if 0 < t then 1 else 0))

/-- What the simulator needs to be created and run: households in groups with at most a number of residents, activities for them, appliances to simulate (`kept`), hot water that flows, usable load profiles and options, and the daily starts of all the activities with probabilities. -/
structure ProbSetup (kept : List AppData) (switchedOn full : ProfilesDict (List Rat)) (data : Subgroup → ActStats) (n : Nat) (gs : List Subgroup) (acts : Activities) (args : ActSim.ActArgs) : Prop where
  inhabited : 0 < n
  residents : ∀ g ∈ gs, ∀ l, g.at kNResidents ≠ some (.list l)
  starts : ∀ g ∈ gs, ∀ p ∈ (data g).probs, ∃ s ∈ (data g).starts, s.1 = p.1
  activities : ActivitiesOk n [] acts
  flows : ∀ x ∈ kept, x.usesWater = true → 0 < x.flow
  usable : args.equip.Usable gs
  notEmpty : ProfilesNotEmpty kept switchedOn full
  profiles : ActProfilesOk kept switchedOn full args

/-- The limits of the simulator: of the appliances to simulate (`kept`) none is always on and exactly one follows a type of appliances. -/
structure ProbLimits (kept : List AppData) : Prop where
  notAlways : ∀ x ∈ kept, ¬ x.info.AlwaysOn
  follower : ∃ f T, f < kept.length ∧ OnlyFollower (kept.map (·.info)) f T

namespace ProbActSim

/-- The appliance at position `a` with data `x`, as the simulator `s` has equipped household `h` with it. -/
def appl (s : ProbActSim) (h a : Nat) (x : AppData) : Appl := applOf s.owned s.choice h a x

end ProbActSim

end Demod
