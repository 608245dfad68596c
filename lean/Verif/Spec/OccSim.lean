import Verif.Spec.Utils
import Verif.Model.OccSim
import Verif.Spec.Equip

/-! # Specifications for the simulation of the appliances with the active occupancy -/

namespace Demod

/-- `g'` says of the households of `g` what they do on a day, numbered from Monday 1 January of year 1: the weekday entry is that of working days or that of week-ends, nothing is said of the quarter,
and all the rest is as in `g`. -/
structure OnDay (g : Subgroup) (day : Int) (g' : Subgroup) : Prop where
  weekday : g'.at kWeekday = some (if day % 7 ≤ 4 then .list [1, 2, 3, 4, 5] else .list [6, 7])
  quarter : g'.at kQuarter = none
  rest : ∀ k, k ≠ kWeekday → k ≠ kQuarter → g'.at k = g.at k

/-- According to the profiles of a subgroup, `p` is the probability of an activity in a period of ten minutes (`row`, counted from the refresh time) in households with `n` active occupants. -/
def ProfileEntry (profiles : Subgroup → List (Str × List (List Rat))) (g : Subgroup) (activity : Str) (row n : Nat) (p : Rat) : Prop :=
  ∃ profile r, (profiles g).lookup activity = some profile ∧ profile[row]? = some r ∧ r[n]? = some p

/-- The profiles of the subgroups on all days cover the activities of all the appliances, the 144 periods of a day and up to `m` active occupants. -/
def CompleteProfiles (profiles : Subgroup → List (Str × List (List Rat))) (groups : List Subgroup) (apps : List AppData) (m : Nat) : Prop :=
  ∀ g ∈ groups, ∀ day g', OnDay g day g' → ∀ x ∈ apps, ∃ profile, (profiles g').lookup x.info.activity = some profile ∧ profile.length = 144 ∧ ∀ r ∈ profile, m < r.length

/-- The appliance at position `a` with data `x`, as household `h` has it, given what the households own and the load profiles chosen for them. -/
def applOf (owned : List (List Bool)) (choice : ProfileChoice) (h a : Nat) (x : AppData) : Appl :=
  { owned := (owned.getD h []).getD a false, standby := x.standby, meanPower := x.meanPower, varLoad := choice.varLoad a,
    row := (((choice.loads x.info.type).getD []).getD (choice.id h a) []), loadDuration := choice.duration h a, usesWater := x.usesWater, flow := x.flow, delay := x.delay,
    switchOff := x.switchOff, meanDuration := x.info.meanDuration }

namespace OccSim

/-- The appliance at position `a` with data `x`, as the simulator `s` has equipped household `h` with it. -/
def appl (s : OccSim) (h a : Nat) (x : AppData) : Appl := applOf s.owned s.choice h a x

/-- The number of steps it remains in use and the number of steps until it is available again. -/
def st (s : OccSim) (h a : Nat) : ApplState := ⟨(s.left.getD h []).getD a 0, (s.till.getD h []).getD a 0⟩

/-- During steps of a minute from time `t0` on, each with the numbers of active occupants and the random draws given for it, the appliance passes from state `b` to state `b'` as an appliance alone does: in each step it is
governed by the active occupants of its household, by its own uniform draw, by a volume of the stream of the step, and by its probability, times that of its activity for these occupants in the current period of
ten minutes on the current day, both counted from the refresh time. -/
def Follows (profiles : Subgroup → List (Str × List (List Rat))) (refresh : Int) (groups : List Subgroup) (s : OccSim) (t0 : Int) (inputs : List (List Nat × OccDraws)) (rank : Nat → Nat × Nat → Nat)
    (h a : Nat) (x : AppData) (b b' : ApplState) : Prop :=
  ∃ ins : List Appl.OccInput, ins.length = inputs.length ∧ b' = (s.appl h a x).occRun b ins ∧
    ∀ (i : Nat) occ d, inputs[i]? = some (occ, d) → ∃ n p k g g', occ[h]? = some n ∧ s.hhTypes[h]? = some k ∧ groups[k]? = some g ∧ OnDay g ((t0 + i * 60000000 - refresh) / 86400000000) g' ∧
      ProfileEntry profiles g' x.info.activity ((t0 + i * 60000000 - refresh) % 86400000000 / 600000000).toNat n p ∧
      ins[i]? = some { active := n, prob := x.info.switchOnProb * p, u := d.u h a, volume := d.volume (rank i (h, a)) }

/-- Inputs with a number of active occupants, at most `m`, for each household. -/
def OkInputs (n m : Nat) (inputs : List (List Nat × OccDraws)) : Prop := ∀ i ∈ inputs, i.1.length = n ∧ ∀ x ∈ i.1, x ≤ m

end OccSim

/-- The ways to equip the households that exist, with a set of appliances for each subgroup if the sets are given. -/
def EquipAlgo.Usable (groups : List Subgroup) : EquipAlgo → Prop
  | .basic => True
  | .subgroup _ => True
  | .correlated => False
  | .setDefined sets => groups.length ≤ sets.length
  | .all => True
  | .unknown => False

/-- No type of appliance is listed in the load profiles without any profile. -/
def ProfilesNotEmpty (apps : List AppData) (switchedOn full : ProfilesDict (List Rat)) : Prop := ∀ x ∈ apps, full.get x.info.type ≠ some [] ∧ switchedOn.get x.info.type ≠ some []

/-- What the simulator needs to be created: a refresh time of the day at a multiple of ten minutes and a start at a full minute, households in existing subgroups, appliances, the step size of the data, complete profiles for up
to `m` active occupants, and options that exist. -/
structure OccSetup (apps : List AppData) (profiles : Subgroup → List (Str × List (List Rat))) (switchedOn full : ProfilesDict (List Rat)) (refresh dataStep : Int) (groups : List Subgroup) (ns : List Nat)
    (stepSize : Option Int) (start : Int) (args : OccSim.OccArgs) (m : Nat) : Prop where
  refresh0 : 0 ≤ refresh
  refresh1 : refresh < 86400000000
  refresh10 : refresh % 600000000 = 0
  fullMinute : start % 60000000 = 0
  inhabited : 0 < ns.sum
  enough : ns.length ≤ groups.length
  someApp : apps ≠ []
  stepOk : stepSize.getD dataStep = dataStep
  complete : CompleteProfiles profiles groups apps m
  some' : 1 ≤ m
  initialOk : ∀ occ, args.initial = some occ → occ.length = ns.sum ∧ ∀ x ∈ occ, x ≤ m
  usable : args.equip.Usable groups
  known : args.real ≠ .unknown
  notEmpty : ProfilesNotEmpty apps switchedOn full

/-- Load profiles are not used, or: no type has both always-on and other appliances, and each appliance with load profiles for its kind draws one of them, which is not empty, and no hot water. -/
def OccProfilesOk (apps : List AppData) (switchedOn full : ProfilesDict (List Rat)) (args : OccSim.OccArgs) : Prop :=
  args.real = .nothing ∨ (args.real = .uniform ∧ Separated (apps.map (·.info)) ∧
    (∀ (a : Nat) x named, apps[a]? = some x → x.info.AlwaysOn → full.get x.info.type = some named → x.usesWater = false ∧ ∀ h, ∃ name p, named[args.draw' h a]? = some (name, p) ∧ p ≠ []) ∧
    (∀ (a : Nat) x named, apps[a]? = some x → ¬ x.info.AlwaysOn → switchedOn.get x.info.type = some named → x.usesWater = false ∧ ∀ h, ∃ name p, named[args.draw h a]? = some (name, p) ∧ p ≠ []))

end Demod
