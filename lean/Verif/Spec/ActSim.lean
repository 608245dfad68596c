import Verif.Model.ActSim
import Verif.Spec.OccSim

/-! # Specifications for the simulation of the appliances with the activities -/

namespace Demod

/-- The number of residents of household `h` that perform `act`, 0 if that is not said. -/
def Activities.performing (acts : Activities) (act : Str) (h : Nat) : Nat := ((acts.lookup act).getD []).getD h 0

/-- The dictionary says for each of the activities `names`, and maybe for others, but not for those of always-on appliances, how many residents of each of the `n` households perform it. -/
structure ActivitiesOk (n : Nat) (names : List Str) (acts : Activities) : Prop where
  nodup : (acts.map (·.1)).Nodup
  covers : ∀ act ∈ names, act ∈ acts.map (·.1)
  proper : ∀ act ∈ acts.map (·.1), act ≠ "level".toList ∧ act ≠ "constant".toList
  length : ∀ q ∈ acts, q.2.length = n

instance (a : AppInfo) : Decidable a.AlwaysOn := by unfold AppInfo.AlwaysOn; infer_instance

/-- The appliances that are simulated: those whose activity is given or that are always on; those marked as probabilistic, if there are such marks (`flags`), are left out. -/
def actApps (flags : Bool) (acts : Activities) (apps : List AppData) : List AppData :=
  apps.filter fun x => decide ((x.info.activity ∈ acts.map Prod.fst ∨ x.info.AlwaysOn) ∧ (flags = true → x.info.probabilistic = false))

/-- The activity begins at position `j` of a history of numbers of residents that perform it: someone performs it there, and nobody just before. -/
def Begins (hist : List Nat) (j : Nat) : Prop := (∃ m, hist[j]? = some m ∧ 0 < m) ∧ (j = 0 ∨ hist[j - 1]? = some 0)

/-- The activity begins at position `j` and not later. -/
def LastBegin (hist : List Nat) (j : Nat) : Prop := Begins hist j ∧ ∀ i, Begins hist i → i ≤ j

/-- An appliance is in use: it is owned and always on, or someone performs its activity, or has performed it if nothing switches it off. -/
def ActInUse (A : Appl) (always : Prop) (hist : List Nat) : Prop :=
  A.owned = true ∧ (always ∨ (A.switchOff = true ∧ ∃ m, hist.getLast? = some m ∧ 0 < m) ∨ (A.switchOff = false ∧ ∃ m ∈ hist, 0 < m))

/-- The power `w` of an appliance: none if it is not owned, its standby power if it is owned and not in use, its mean power if it is in use without a load profile. With a load profile an always-on appliance goes round
its profile, from `start` samples before its end on, and another one goes round it from the last time when its activity began. -/
structure ActConsumes (A : Appl) (always : Prop) (start : Nat) (hist : List Nat) (w : Rat) : Prop where
  absent : A.owned = false → w = 0
  standby : A.owned = true → ¬ ActInUse A always hist → w = A.standby
  constant : ActInUse A always hist → A.varLoad = false → w = A.meanPower
  round : ActInUse A always hist → A.varLoad = true → always → A.row[(A.loadDuration - start + hist.length) % A.loadDuration]? = some w
  fromBegin : ActInUse A always hist → A.varLoad = true → ¬ always → ∃ j, LastBegin hist j ∧ A.row[(hist.length - j) % A.loadDuration]? = some w

/-- Load profiles are not used, or: no type has both always-on and other appliances, and each appliance with load profiles for its kind draws one of them, which is not empty, and for always-on appliances not of one sample. -/
def ActProfilesOk (apps : List AppData) (switchedOn full : ProfilesDict (List Rat)) (args : ActSim.ActArgs) : Prop :=
  args.real = .nothing ∨ (args.real = .uniform ∧ Separated (apps.map (·.info)) ∧
    (∀ (a : Nat) x named, apps[a]? = some x → x.info.AlwaysOn → full.get x.info.type = some named → ∀ h, ∃ name p, named[args.draw' h a]? = some (name, p) ∧ 2 ≤ p.length) ∧
    (∀ (a : Nat) x named, apps[a]? = some x → ¬ x.info.AlwaysOn → switchedOn.get x.info.type = some named → ∀ h, ∃ name p, named[args.draw h a]? = some (name, p) ∧ p ≠ []))

/-- What the simulator needs to be created: households in existing subgroups, activities for them, appliances that it can simulate (`kept`), with usable load profiles, and options that exist. -/
structure ActSetup (kept : List AppData) (switchedOn full : ProfilesDict (List Rat)) (groups : List Subgroup) (ns : List Nat) (acts : Activities) (args : ActSim.ActArgs) : Prop where
  inhabited : 0 < ns.sum
  enough : ns.length ≤ groups.length
  someApp : kept ≠ []
  activities : ActivitiesOk ns.sum [] acts
  usable : args.equip.Usable groups
  notEmpty : ProfilesNotEmpty kept switchedOn full
  profiles : ActProfilesOk kept switchedOn full args

namespace ActSim

/-- The appliance at position `a` with data `x`, as the simulator `s` has equipped household `h` with it. -/
def appl (s : ActSim) (h a : Nat) (x : AppData) : Appl := applOf s.owned s.choice h a x

/-- The state of the appliance with data `x`: the number of steps left in its load profile, the number of steps until it is available again, whether it is used, and how many residents performed its activity last. -/
def st (s : ActSim) (h a : Nat) (x : AppData) : Appl.ActState :=
  ⟨⟨(s.left.getD h []).getD a 0, (s.till.getD h []).getD a 0⟩, (s.used.getD h []).getD a false, s.prev.performing x.info.activity h⟩

end ActSim

end Demod
