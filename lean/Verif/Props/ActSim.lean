import Verif.Lemmas.ActSimGet
import Verif.Props.OccSim

/-! # Property C110: the simulation of the appliances with the activities -/

namespace Demod

/-- **C110.** The simulator is created, with the appliances that it can simulate, drawn for the households according to their subgroups, and the load profiles drawn for these. -/
theorem C110_create (apps : List AppData) (flags : Bool) (switchedOn full : ProfilesDict (List Rat)) (groups : List Subgroup) (ns : List Nat) (acts : Activities) (args : ActSim.ActArgs)
    (hs : ActSetup (actApps flags acts apps) switchedOn full groups ns acts args) :
    ∃ s0 t, ActSim.create apps flags switchedOn full groups ns acts args = .ok s0 ∧ s0.apps = actApps flags acts apps ∧ t.length = ns.sum ∧ (∀ (h k : Nat), t[h]? = some k ↔ InSubgroup ns h k) ∧
      sampleAvailable (s0.apps.map (·.info)) groups t args.uOwned args.equip = .ok s0.owned ∧
      chooseProfiles (s0.apps.map (·.info)) (fun h a => (s0.owned.getD h []).getD a false) switchedOn full args.draw args.draw' args.real = .ok s0.choice := by
  obtain ⟨first, s0, t, e, a1, a2, a3, a4, a5, -⟩ := ActSim.create_spec apps flags switchedOn full groups ns acts args hs
  refine ⟨s0, t, by unfold ActSim.create; rw [e]; rfl, a1, a2, a3, by rw [a1]; exact a4, by rw [a1]; exact a5⟩

/-- **C110.** With the activities of all the households in each step, the simulation never fails, what the households have does not change, and every appliance of every household behaves as the appliance alone, governed by the
numbers of residents of its household that perform its activity. -/
theorem C110_run (apps : List AppData) (flags : Bool) (switchedOn full : ProfilesDict (List Rat)) (groups : List Subgroup) (ns : List Nat) (acts : Activities) (args : ActSim.ActArgs)
    (hs : ActSetup (actApps flags acts apps) switchedOn full groups ns acts args) (s0 : ActSim) (h0 : ActSim.create apps flags switchedOn full groups ns acts args = .ok s0)
    (inputs : List Activities) (hi : ∀ i ∈ inputs, ActivitiesOk ns.sum (acts.map (·.1)) i) :
    ∃ s, ActSim.run s0 inputs = .ok s ∧ s.apps = s0.apps ∧ s.owned = s0.owned ∧ s.choice = s0.choice ∧ ∀ h a x, h < ns.sum → s0.apps[a]? = some x → ∃ delay : Int, 0 ≤ delay ∧ (0 < delay → delay < x.delay) ∧
      (¬ x.info.AlwaysOn → s.st h a x = (s0.appl h a x).actRun ((s0.appl h a x).actInit delay (acts.performing x.info.activity h)) (inputs.map fun i => i.performing x.info.activity h)) ∧
      (x.info.AlwaysOn → ∃ start, s.st h a x = (s0.appl h a x).actStepAlwaysOn^[inputs.length] ((s0.appl h a x).actInitAlwaysOn delay start) ∧ (1 < (s0.appl h a x).loadDuration → 1 ≤ start ∧ start < (s0.appl h a x).loadDuration)) := by
  obtain ⟨first, s0', t, e, a1, a2, a3, a4, a5, a6, a7, a8, a9, -⟩ := ActSim.create_spec apps flags switchedOn full groups ns acts args hs
  have e' : ActSim.create apps flags switchedOn full groups ns acts args = .ok s0' := by unfold ActSim.create; rw [e]; rfl
  rw [h0] at e'
  obtain rfl := Except.ok.inj e'
  obtain ⟨s, er, k1, k2, k3, k4⟩ := ActSim.run_spec (acts.map (·.1)) inputs s0 a6 (by
    intro x hx
    rw [a1] at hx
    unfold actApps at hx
    rw [List.mem_filter, decide_eq_true_eq] at hx
    exact hx.2.1) (by
    rw [a7, a8]
    exact ⟨hs.activities.nodup, fun _ h => h, hs.activities.proper, hs.activities.length⟩) (by rw [a7]; exact hi)
  refine ⟨s, er, k2.apps, k2.owned, k2.choice, ?_⟩
  intro h a x hh hx
  obtain ⟨b1, b2⟩ := a9 h a x hh (by rw [← a1]; exact hx)
  obtain ⟨c1, c2⟩ := k4 h a x (by rw [a7]; exact hh) hx
  refine ⟨if x.delay > 0 then ((args.delay h a % x.delay : Nat) : Int) else 0, ?_, ?_, ?_, ?_⟩
  · split_ifs
    · omega
    · exact le_refl _
  · intro hd
    split_ifs at hd ⊢ with hc
    · have := Nat.mod_lt (args.delay h a) hc
      omega
    · omega
  · intro hon
    rw [c1 hon, b1 hon]
  · intro hon
    refine ⟨1 + args.start h a % ((s0.appl h a x).loadDuration - 1), by rw [c2 hon, b2 hon], ?_⟩
    intro hl
    have := Nat.mod_lt (args.start h a) (show (s0.appl h a x).loadDuration - 1 > 0 by omega)
    omega

/-- **C110.** From its creation on and after any steps, an appliance is in use exactly if it is owned and always on, or someone in the household performs its activity (or has ever performed it, for appliances that are not
switched off), its power and its hot water are as specified, and the power demand of a household is the sum of the powers of its appliances. -/
theorem C110_getters (apps : List AppData) (flags : Bool) (switchedOn full : ProfilesDict (List Rat)) (groups : List Subgroup) (ns : List Nat) (acts : Activities) (args : ActSim.ActArgs)
    (hs : ActSetup (actApps flags acts apps) switchedOn full groups ns acts args) (s0 : ActSim) (h0 : ActSim.create apps flags switchedOn full groups ns acts args = .ok s0) :
    ∃ start : Nat → Nat → Nat, (∀ h a x, s0.apps[a]? = some x → 1 < (s0.appl h a x).loadDuration → 1 ≤ start h a ∧ start h a < (s0.appl h a x).loadDuration) ∧
    ∀ inputs : List Activities, (∀ i ∈ inputs, ActivitiesOk ns.sum (acts.map (·.1)) i) →
    ∃ s P, ActSim.run s0 inputs = .ok s ∧ s.powerDemand = .ok P ∧ P.length = ns.sum ∧ s.usage.length = ns.sum ∧ s.water.length = ns.sum ∧ ∀ h, h < ns.sum →
      (∃ ws : List Rat, P[h]? = some ws.sum ∧ ws.length = s0.apps.length ∧ ∀ (a : Nat) x w, s0.apps[a]? = some x → ws[a]? = some w →
        ActConsumes (s0.appl h a x) x.info.AlwaysOn (start h a) ((acts :: inputs).map fun i => i.performing x.info.activity h) w) ∧
      (∃ us vs, s.usage[h]? = some us ∧ s.water[h]? = some vs ∧ us.length = s0.apps.length ∧ vs.length = s0.apps.length ∧ ∀ (a : Nat) x, s0.apps[a]? = some x →
        ∃ u, us[a]? = some u ∧ (u = true ↔ ActInUse (s0.appl h a x) x.info.AlwaysOn ((acts :: inputs).map fun i => i.performing x.info.activity h)) ∧ vs[a]? = some (if u then x.flow else 0)) := by
  obtain ⟨first, s0', t, e, a1, a2, a3, a4, a5, a6, a7, a8, a9, -⟩ := ActSim.create_spec apps flags switchedOn full groups ns acts args hs
  have e' : ActSim.create apps flags switchedOn full groups ns acts args = .ok s0' := by unfold ActSim.create; rw [e]; rfl
  rw [h0] at e'
  obtain rfl := Except.ok.inj e'
  refine ⟨fun h a => 1 + args.start h a % (s0.choice.duration h a - 1), ?_, ?_⟩
  · intro h a x _ hl
    change 1 < s0.choice.duration h a at hl
    change 1 ≤ 1 + args.start h a % (s0.choice.duration h a - 1) ∧ 1 + args.start h a % (s0.choice.duration h a - 1) < s0.choice.duration h a
    have := Nat.mod_lt (args.start h a) (show s0.choice.duration h a - 1 > 0 by omega)
    omega
  intro inputs hi
  obtain ⟨s, er, k1, k2, k3, k4⟩ := ActSim.run_spec (acts.map (·.1)) inputs s0 a6 (by
    intro x hx
    rw [a1] at hx
    unfold actApps at hx
    rw [List.mem_filter, decide_eq_true_eq] at hx
    exact hx.2.1) (by
    rw [a7, a8]
    exact ⟨hs.activities.nodup, fun _ h => h, hs.activities.proper, hs.activities.length⟩) (by rw [a7]; exact hi)
  have hn : s.owned.length = ns.sum := by rw [k2.owned, a7]
  have key : ∀ h a x, h < ns.sum → s0.apps[a]? = some x →
      ((s0.appl h a x).actUsage (s.st h a x) = true ↔ ActInUse (s0.appl h a x) x.info.AlwaysOn ((acts :: inputs).map fun i => i.performing x.info.activity h)) ∧
      ∃ w, (s0.appl h a x).power ((s0.appl h a x).actUsage (s.st h a x)) (s.st h a x).base = .ok w ∧
        ActConsumes (s0.appl h a x) x.info.AlwaysOn (1 + args.start h a % (s0.choice.duration h a - 1)) ((acts :: inputs).map fun i => i.performing x.info.activity h) w := by
    intro h a x hh hx
    have hx' : (actApps flags acts apps)[a]? = some x := by rw [← a1]; exact hx
    obtain ⟨b1, b2⟩ := a9 h a x hh hx'
    obtain ⟨c1, c2⟩ := k4 h a x (by rw [a7]; exact hh) hx
    obtain ⟨r1, r2⟩ := choice_rows _ s0.owned s0.choice switchedOn full args hs.profiles a5 h a x hx'
    by_cases hon : x.info.AlwaysOn
    · rw [c2 hon, b2 hon, eq_true hon]
      refine act_consumes_always _ (fun ho hv => ?_) _ _ (fun ho hv => ?_) _ inputs.length (by simp)
      · exact ⟨(r1 ho hv).2.2 hon, (r1 ho hv).2.1⟩
      · have h2 := (r1 ho hv).2.2 hon
        change 2 ≤ s0.choice.duration h a at h2
        change 1 ≤ 1 + args.start h a % (s0.choice.duration h a - 1) ∧ 1 + args.start h a % (s0.choice.duration h a - 1) < s0.choice.duration h a
        have := Nat.mod_lt (args.start h a) (show s0.choice.duration h a - 1 > 0 by omega)
        omega
    · rw [c1 hon, b1 hon, eq_false hon]
      exact act_consumes _ (fun ho hv => ⟨(r1 ho hv).1, (r1 ho hv).2.1⟩) _ _ _ _
  have hue : ∀ h a x, h < ns.sum → s0.apps[a]? = some x → ent s.usage h a = some ((s0.appl h a x).actUsage (s.st h a x)) := by
    intro h a x hh hx
    have ha : a < s.apps.length := by rw [k2.apps]; exact (List.getElem?_eq_some_iff.1 hx).1
    obtain ⟨u, eu⟩ := k1.used.ent (by rw [hn]; exact hh) ha
    obtain ⟨o, eo⟩ := k1.owned.ent (by rw [hn]; exact hh) ha
    unfold ActSim.usage
    rw [ent_zip s.used s.owned (fun q => q.1 && q.2) eu eo]
    rw [k2.owned] at eo
    unfold Appl.actUsage ActSim.st ActSim.appl applOf
    simp only
    rw [ent_getD eu, ent_getD eo]
  have hur : Rect ns.sum s0.apps.length s.usage := by
    have := rect_zip (fun q : Bool × Bool => q.1 && q.2) k1.used k1.owned
    rw [hn, k2.apps] at this
    exact this
  obtain ⟨W, hW⟩ : ∃ W : Nat → Nat → Rat, ∀ h a x, h < ns.sum → s0.apps[a]? = some x → (s0.appl h a x).power ((s0.appl h a x).actUsage (s.st h a x)) (s.st h a x).base = .ok (W h a) := by
    refine ⟨fun h a => match s0.apps[a]? with
      | some x => match (s0.appl h a x).power ((s0.appl h a x).actUsage (s.st h a x)) (s.st h a x).base with
        | .ok w => w
        | .error _ => 0
      | none => 0, ?_⟩
    intro h a x hh hx
    obtain ⟨-, w, ew, -⟩ := key h a x hh hx
    simp only [hx, ew]
  have ho' : Rect ns.sum s0.apps.length s0.owned := by have := a6.owned; rwa [a7] at this
  have hl' : Rect ns.sum s0.apps.length s.left := by have := k1.left; rwa [hn, k2.apps] at this
  obtain ⟨M, eM, hM, hMe⟩ := powersOf_spec s0.apps s0.choice s0.owned s.left s.usage ns.sum ho' hl' hur W (by
    intro h a x u l hh hx hu hl
    have h1 := hue h a x hh hx
    rw [hu] at h1
    rw [Option.some.inj h1]
    have := hW h a x hh hx
    have hst : (s.st h a x).base.left = l := ent_getD hl
    rw [show (applOf s0.owned s0.choice h a x).power ((s0.appl h a x).actUsage (s.st h a x)) ⟨l, 0⟩ = (s0.appl h a x).power ((s0.appl h a x).actUsage (s.st h a x)) (s.st h a x).base from by
      unfold Appl.power Appl.variableLoad
      rw [hst]
      rfl]
    exact this)
  have eM' : s.powers = .ok M := by
    unfold ActSim.powers
    rw [k2.apps, k2.choice, k2.owned]
    exact eM
  have hwater : ∀ (h : Nat) (us : List Bool), s.usage[h]? = some us → s.water[h]? = some ((us.zip s0.apps).map fun q => (if q.1 then 1 else 0) * q.2.flow) := by
    intro h us hus
    unfold ActSim.water
    rw [List.getElem?_map, hus, k2.apps]
    rfl
  refine ⟨s, M.map List.sum, er, by unfold ActSim.powerDemand; simp only [bind, Except.bind, eM'], by simp [hM.1], hur.1, by unfold ActSim.water; rw [List.length_map]; exact hur.1, ?_⟩
  intro h hh
  constructor
  · have hr := List.getElem?_eq_getElem (show h < M.length by rw [hM.1]; exact hh)
    refine ⟨M[h]'(by rw [hM.1]; exact hh), by rw [List.getElem?_map, hr]; rfl, hM.2 _ (List.getElem_mem _), ?_⟩
    intro a x w hx hw
    have := hMe h a hh (List.getElem?_eq_some_iff.1 hx).1
    unfold ent at this
    rw [hr, Option.bind_some, hw] at this
    obtain ⟨-, w', e1, hw'⟩ := key h a x hh hx
    rw [hW h a x hh hx] at e1
    rw [Option.some.inj this, Except.ok.inj e1]
    exact hw'
  · have hr := List.getElem?_eq_getElem (show h < s.usage.length by rw [hur.1]; exact hh)
    have hlen := hur.2 _ (List.getElem_mem (show h < s.usage.length by rw [hur.1]; exact hh))
    refine ⟨_, _, hr, hwater h _ hr, hlen, by rw [List.length_map, List.length_zip, hlen, Nat.min_self], ?_⟩
    intro a x hx
    have h1 := hue h a x hh hx
    unfold ent at h1
    rw [hr, Option.bind_some] at h1
    refine ⟨_, h1, (key h a x hh hx).1, ?_⟩
    rw [List.getElem?_map, zip_get (z := ((s0.appl h a x).actUsage (s.st h a x), x)) h1 hx, Option.map_some]
    cases (s0.appl h a x).actUsage (s.st h a x) <;> simp

/-- **C110.** No household and no appliance to simulate are refused. -/
theorem C110_refuses (apps : List AppData) (flags : Bool) (switchedOn full : ProfilesDict (List Rat)) (groups : List Subgroup) (ns : List Nat) (acts : Activities) (args : ActSim.ActArgs) (s0 : ActSim)
    (h : ActSim.create apps flags switchedOn full groups ns acts args = .ok s0) : 0 < ns.sum ∧ actApps flags acts apps ≠ [] := by
  unfold ActSim.create at h
  cases hc : ActSim.createLogged apps flags switchedOn full groups ns acts args with
  | error err => rw [hc] at h; cases h
  | ok r =>
    clear h
    unfold ActSim.createLogged at hc
    simp only [bind, Except.bind] at hc
    rw [ActSim.kept_eq] at hc
    split at hc
    · cases hc
    · by_cases h2 : ns.sum = 0
      · rw [if_pos h2] at hc
        cases hc
      · rw [if_neg h2] at hc
        refine ⟨by omega, ?_⟩
        intro hk
        split at hc
        · cases hc
        · split at hc
          · cases hc
          · split at hc
            · cases hc
            · split at hc
              · cases hc
              · rw [if_pos hk] at hc
                cases hc

/-- **C110 (counterexample).** One would expect the first values in the log of a simulator to be those that its getters give before the first step. The logger visits it before its appliances are switched on: at that time
none is in use, not even an always-on one, whatever the activities are. -/
theorem C110_first_log_counterexample (apps : List AppData) (flags : Bool) (switchedOn full : ProfilesDict (List Rat)) (groups : List Subgroup) (ns : List Nat) (acts : Activities) (args : ActSim.ActArgs)
    (hs : ActSetup (actApps flags acts apps) switchedOn full groups ns acts args) :
    ∃ first s0, ActSim.createLogged apps flags switchedOn full groups ns acts args = .ok (first, s0) ∧ ActSim.create apps flags switchedOn full groups ns acts args = .ok s0 ∧
      (∀ us ∈ first.usage, ∀ u ∈ us, u = false) ∧
      ∀ h a x, h < ns.sum → s0.apps[a]? = some x → (s0.appl h a x).owned = true → x.info.AlwaysOn → ∃ us, s0.usage[h]? = some us ∧ us[a]? = some true := by
  obtain ⟨first, s0, t, e, a1, a2, a3, a4, a5, a6, a7, a8, a9, b1, b2, b3, b4, b5⟩ := ActSim.create_spec apps flags switchedOn full groups ns acts args hs
  have e' : ActSim.create apps flags switchedOn full groups ns acts args = .ok s0 := by unfold ActSim.create; rw [e]; rfl
  refine ⟨first, s0, e, e', ?_, ?_⟩
  · intro us hus u hu
    unfold ActSim.usage at hus
    obtain ⟨⟨r, o⟩, hq, rfl⟩ := List.mem_map.1 hus
    obtain ⟨⟨p, q⟩, hp, rfl⟩ := List.mem_map.1 hu
    have h1 := (List.of_mem_zip hq).1
    have h2 := (List.of_mem_zip hp).1
    obtain ⟨i, hi⟩ := List.mem_iff_getElem?.1 h1
    obtain ⟨j, hj⟩ := List.mem_iff_getElem?.1 h2
    have := b5 i j
    rw [List.getD_eq_getElem?_getD (l := first.used), hi, Option.getD_some, List.getD_eq_getElem?_getD, hj, Option.getD_some] at this
    simp only
    rw [this, Bool.false_and]
  · intro h a x hh hx ho hon
    obtain ⟨start, -, hrest⟩ := C110_getters apps flags switchedOn full groups ns acts args hs s0 e'
    obtain ⟨s, P, er, -, -, -, -, hall⟩ := hrest [] (by simp)
    obtain rfl : s = s0 := (Except.ok.inj er).symm
    obtain ⟨-, us, vs, h1, -, -, -, h2⟩ := hall h hh
    obtain ⟨u, h3, h4, -⟩ := h2 a x hx
    refine ⟨us, h1, ?_⟩
    rw [h3, h4.2 ⟨ho, Or.inl hon⟩]

/-! ## An example -/

/-- A television that goes off with its activity, a fridge with a load profile, an oven that is not switched off, and a probabilistic kettle. -/
def demoActApps : List AppData :=
  [ { info := { demoKettleInfo with name := "tv".toList, type := "tv".toList, activity := "watching".toList, probabilistic := false }, standby := 1, meanPower := 100, usesWater := false, flow := 0, delay := 0, switchOff := true },
    { info := { demoKettleInfo with name := "fridge".toList, type := "fridge".toList, activity := "level".toList, probabilistic := false }, standby := 0, meanPower := 50, usesWater := false, flow := 0, delay := 0, switchOff := false },
    { info := { demoKettleInfo with name := "oven".toList, type := "oven".toList, activity := "cooking".toList, probabilistic := false }, standby := 2, meanPower := 1000, usesWater := false, flow := 0, delay := 4, switchOff := false },
    { info := demoKettleInfo, standby := 1, meanPower := 2000, usesWater := false, flow := 0, delay := 1, switchOff := true } ]

/-- The load profile of the fridge. -/
def demoActFull : ProfilesDict (List Rat) := [("fridge".toList, [("day".toList, [10, 20, 30])])]

/-- The load profile of the oven. -/
def demoActSwitchedOn : ProfilesDict (List Rat) := [("oven".toList, [("use".toList, [500, 600])])]

/-- Everything is owned, with load profiles. -/
def demoActArgs : ActSim.ActArgs := { equip := .all, real := .uniform, uOwned := fun _ _ => 0, draw := fun _ _ => 0, draw' := fun _ _ => 0, start := fun _ _ => 0, delay := fun _ _ => 1 }

/-- The activities of two households: someone watches television in the first one. -/
def demoActs : Activities := [("watching".toList, [1, 0]), ("cooking".toList, [0, 0])]

theorem demoAct_kept : actApps true demoActs demoActApps = demoActApps.take 3 := by
  unfold actApps demoActApps
  rw [List.filter_cons_of_pos (by decide +kernel), List.filter_cons_of_pos (by decide +kernel), List.filter_cons_of_pos (by decide +kernel), List.filter_cons_of_neg (by decide +kernel)]
  rfl

theorem demoAct_setup : ActSetup (actApps true demoActs demoActApps) demoActSwitchedOn demoActFull [[], []] [1, 1] demoActs demoActArgs where
  inhabited := by decide
  enough := by decide
  someApp := by rw [demoAct_kept]; exact List.cons_ne_nil _ _
  activities := ⟨by decide +kernel, by simp, by decide +kernel, by decide +kernel⟩
  usable := trivial
  notEmpty := by
    rw [demoAct_kept]
    have : ∀ x ∈ demoActApps.take 3, (decide (demoActFull.get x.info.type ≠ some []) && decide (demoActSwitchedOn.get x.info.type ≠ some [])) = true := by
      intro x hx
      unfold demoActApps at hx
      simp only [List.take, List.mem_cons, List.not_mem_nil, or_false] at hx
      rcases hx with rfl | rfl | rfl <;> decide +kernel
    intro x hx
    have := this x hx
    simpa using this
  profiles := by
    right
    rw [demoAct_kept]
    refine ⟨rfl, ?_, ?_, ?_⟩
    · unfold Separated demoActApps
      simp only [List.take, List.map_cons, List.map_nil, List.mem_cons, List.not_mem_nil, or_false]
      rintro a (rfl | rfl | rfl) b (rfl | rfl | rfl) h <;> first | rfl | (exfalso; revert h; decide +kernel)
    · intro a x named hx hon hf h
      have hm := List.mem_of_getElem? hx
      unfold demoActApps at hm
      simp only [List.take, List.mem_cons, List.not_mem_nil, or_false] at hm
      rcases hm with rfl | rfl | rfl
      · exfalso; revert hon; decide +kernel
      · have hn : named = [("day".toList, [10, 20, 30])] := (Option.some.inj hf).symm
        subst hn
        exact ⟨_, _, rfl, by decide⟩
      · exfalso; revert hon; decide +kernel
    · intro a x named hx hon hf h
      have hm := List.mem_of_getElem? hx
      unfold demoActApps at hm
      simp only [List.take, List.mem_cons, List.not_mem_nil, or_false] at hm
      rcases hm with rfl | rfl | rfl
      · have hno : demoActSwitchedOn.get "tv".toList = none := by decide +kernel
        have hf' := hno.symm.trans hf
        cases hf'
      · exfalso; revert hon; decide +kernel
      · have hn : named = [("use".toList, [500, 600])] := (Option.some.inj hf).symm
        subst hn
        exact ⟨_, _, rfl, by simp⟩

/-- Three steps: the television goes off, the second household cooks, then stops. -/
def demoActInputs : List Activities := [[("watching".toList, [0, 0]), ("cooking".toList, [0, 0])], [("cooking".toList, [0, 1]), ("watching".toList, [0, 0])], [("watching".toList, [0, 0]), ("cooking".toList, [0, 0])]]

example : ∀ i ∈ demoActInputs, ActivitiesOk ([1, 1] : List Nat).sum (demoActs.map (·.1)) i := by
  intro i hi
  unfold demoActInputs at hi
  simp only [List.mem_cons, List.not_mem_nil, or_false] at hi
  rcases hi with rfl | rfl | rfl <;> exact ⟨by decide +kernel, by decide +kernel, by decide +kernel, by decide +kernel⟩

example : (do
    let s0 ← ActSim.create demoActApps true demoActSwitchedOn demoActFull [[], []] [1, 1] demoActs demoActArgs
    let s1 ← ActSim.run s0 (demoActInputs.take 1)
    let s2 ← ActSim.run s0 (demoActInputs.take 2)
    let s3 ← ActSim.run s0 demoActInputs
    let p0 ← s0.powerDemand
    let p1 ← s1.powerDemand
    let p2 ← s2.powerDemand
    let p3 ← s3.powerDemand
    .ok ([p0, p1, p2, p3], s3.usage) : Except PyErr _) =
      .ok ([[112, 13], [23, 23], [33, 631], [13, 511]], [[false, true, false], [false, true, true]]) := by decide +kernel

/-- **C110 (counterexample).** One would expect that activities that nobody performs can be left out of the dictionary of a step. The next step that has them fails with a `KeyError`. -/
theorem C110_missing_counterexample : ∃ (s0 : ActSim) (i j : Activities), ActSim.create demoActApps true demoActSwitchedOn demoActFull [[], []] [1, 1] demoActs demoActArgs = .ok s0 ∧
    (∃ s1, ActSim.run s0 [i] = .ok s1) ∧ ActSim.run s0 [i, j] = .error .keyError ∧ ActivitiesOk ([1, 1] : List Nat).sum (demoActs.map (·.1)) j ∧ (∀ act h, act ∉ i.map (·.1) → demoActs.performing act h = 0) := by
  obtain ⟨s0, t, e, -⟩ := C110_create demoActApps true demoActSwitchedOn demoActFull [[], []] [1, 1] demoActs demoActArgs demoAct_setup
  have h : (match ActSim.create demoActApps true demoActSwitchedOn demoActFull [[], []] [1, 1] demoActs demoActArgs with
    | .ok s => (match ActSim.run s [[("watching".toList, [1, 1])]] with | .ok _ => true | .error _ => false) &&
        (match ActSim.run s [[("watching".toList, [1, 1])], [("watching".toList, [1, 1]), ("cooking".toList, [0, 0])]] with | .ok _ => false | .error err => decide (err = .keyError))
    | .error _ => false) = true := by decide +kernel
  rw [e] at h
  simp only [Bool.and_eq_true] at h
  refine ⟨s0, [("watching".toList, [1, 1])], [("watching".toList, [1, 1]), ("cooking".toList, [0, 0])], e, ?_, ?_, ⟨by decide +kernel, by decide +kernel, by decide +kernel, by decide +kernel⟩, ?_⟩
  · cases h1 : ActSim.run s0 [[("watching".toList, [1, 1])]] with
    | ok s => exact ⟨s, rfl⟩
    | error err => rw [h1] at h; cases h.1
  · cases h1 : ActSim.run s0 [[("watching".toList, [1, 1])], [("watching".toList, [1, 1]), ("cooking".toList, [0, 0])]] with
    | ok s => rw [h1] at h; cases h.2
    | error err =>
      rw [h1] at h
      rw [of_decide_eq_true h.2]
  · intro act h hact
    simp only [List.map_cons, List.map_nil, List.mem_singleton] at hact
    unfold Activities.performing demoActs
    rw [List.lookup_cons]
    have : (act == "watching".toList) = false := by simpa using hact
    rw [this, List.lookup_cons]
    cases act == "cooking".toList with
    | true =>
      show [0, 0].getD h 0 = 0
      rcases h with _ | _ | h <;> rfl
    | false => rfl

end Demod
