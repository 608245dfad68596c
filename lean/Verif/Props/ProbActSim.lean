import Verif.Lemmas.ProbActSimGet
import Verif.Props.ActSim

/-! # Property C111: the simulation of the appliances that are used at random with the activities -/

namespace Demod

/-- **C111.** The simulator is created, with the appliances that it can simulate, drawn for the households according to their subgroups, the load profiles drawn for these, and the probabilities of use of each subgroup. -/
theorem C111_create (apps : List AppData) (flags : Bool) (switchedOn full : ProfilesDict (List Rat)) (data : Subgroup → ActStats) (step : Rat) (n : Nat) (groups : Option (List Subgroup)) (ns : Option (List Nat))
    (gs : List Subgroup) (counts : List Nat) (acts : Activities) (args : ActSim.ActArgs) (hh : HouseholdsAre n groups ns gs counts) (hs : ProbSetup (probApps flags acts apps) switchedOn full data n gs acts args) :
    ∃ s0 t, ProbActSim.create apps flags true switchedOn full data step n groups ns acts args = .ok s0 ∧ s0.apps = probApps flags acts apps ∧ t.length = n ∧ (∀ (h k : Nat), t[h]? = some k ↔ InSubgroup counts h k) ∧
      sampleAvailable (s0.apps.map (·.info)) gs t args.uOwned args.equip = .ok s0.owned ∧
      chooseProfiles (s0.apps.map (·.info)) (fun h a => (s0.owned.getD h []).getD a false) switchedOn full args.draw args.draw' args.real = .ok s0.choice ∧
      ∀ (h k : Nat) g, InSubgroup counts h k → gs[k]? = some g → ProbsOf data step (s0.apps.map (·.info)) g fun a => s0.prob (h, a) := by
  obtain ⟨s0, t, e, a1, a2, a3, a4, a5, a6, -⟩ := ProbActSim.prob_create_spec apps flags switchedOn full data step n groups ns gs counts acts args hh hs
  refine ⟨s0, t, e, a1, a2, a3, by rw [a1]; exact a4, by rw [a1]; exact a5, ?_⟩
  rw [a1]
  exact fun h k g hk => a6 h k g ((a3 h k).2 hk)

/-- **C111 (partial).** With the activities of all the households in each step, the simulation never fails and every appliance of every household has a use (none before the first step) that each step continues, ends or begins as
specified, depending on what has happened so far only. An appliance is in use exactly if it is owned and has a use; its power and its hot water are as specified, and the power demand of a household is the sum of the powers of
its appliances. Missing (`ProbLimits`): exactly one of the appliances follows a type, and none is always on. -/
theorem C111_run_partial (apps : List AppData) (flags : Bool) (switchedOn full : ProfilesDict (List Rat)) (data : Subgroup → ActStats) (step : Rat) (n : Nat) (groups : Option (List Subgroup)) (ns : Option (List Nat))
    (gs : List Subgroup) (counts : List Nat) (acts : Activities) (args : ActSim.ActArgs) (hh : HouseholdsAre n groups ns gs counts) (hs : ProbSetup (probApps flags acts apps) switchedOn full data n gs acts args)
    (hlim : ProbLimits (probApps flags acts apps)) (s0 : ProbActSim) (h0 : ProbActSim.create apps flags true switchedOn full data step n groups ns acts args = .ok s0) :
    ∃ (use : List (Bool × Activities × ProbDraws) → Nat → Nat → Use) (own : Activities → Nat → Nat → Nat),
      (∀ h a, use [] h a = none) ∧
      (∀ (now : Activities) h a x h' a' x', s0.apps[a]? = some x → s0.apps[a']? = some x' → x.info.activity = x'.info.activity → 0 < now.performing x.info.activity h → 0 < now.performing x.info.activity h' →
        own now h a = own now h' a' → h = h' ∧ a = a') ∧
      ∀ hist : List (Bool × Activities × ProbDraws), (∀ i ∈ hist, ActivitiesOk n (acts.map (·.1)) i.2.1 ∧ ProbDrawsOk i.2.2) →
        (∀ i : Bool × Activities × ProbDraws, ActivitiesOk n (acts.map (·.1)) i.2.1 → ProbDrawsOk i.2.2 → ∀ h a x, h < n → s0.apps[a]? = some x →
          UseStep (s0.appl h a x) i.1 (ActStops (((hist.map fun j => j.2.1).getLast?).getD acts) i.2.1 x.info.activity h)
            (MayStart s0.apps (use hist h) (((hist.map fun j => j.2.1).getLast?).getD acts) i.2.1 i.2.2 h x (s0.prob (h, a)) (own i.2.1 h a))
            (MustStart s0.apps (use hist h) (((hist.map fun j => j.2.1).getLast?).getD acts) i.2.1 i.2.2 h x (s0.prob (h, a)) (own i.2.1 h a)) (use hist h a) (use (hist ++ [i]) h a)) ∧
        ∃ s P, ProbActSim.run s0 hist = .ok s ∧ s.powerDemand = .ok P ∧ P.length = n ∧ s.usage.length = n ∧ s.water.length = n ∧ ∀ h, h < n →
          (∃ ws : List Rat, P[h]? = some ws.sum ∧ ws.length = s0.apps.length ∧ ∀ (a : Nat) x w, s0.apps[a]? = some x → ws[a]? = some w → UseConsumes (s0.appl h a x) (use hist h a) w) ∧
          (∃ us vs, s.usage[h]? = some us ∧ s.water[h]? = some vs ∧ us.length = s0.apps.length ∧ vs.length = s0.apps.length ∧ ∀ (a : Nat) x, s0.apps[a]? = some x →
            ∃ u, us[a]? = some u ∧ (u = true ↔ (s0.appl h a x).owned = true ∧ use hist h a ≠ none) ∧ vs[a]? = some (if u then x.flow else 0)) := by
  obtain ⟨s0', t, e, a1, a2, a3, a4, a5, a6, b1, b2, b3, b4, b5⟩ := ProbActSim.prob_create_spec apps flags switchedOn full data step n groups ns gs counts acts args hh hs
  rw [h0] at e
  obtain rfl := Except.ok.inj e
  have b4 := b4 hlim.notAlways
  obtain ⟨f, T, hfl, hof⟩ := hlim.follower
  rw [← a1] at hfl hof
  have hcov : ∀ y ∈ s0.apps, y.info.activity ∈ acts.map (·.1) := by
    intro y hy
    rw [a1] at hy
    have hna := hlim.notAlways y hy
    unfold probApps at hy
    rw [List.mem_filter, decide_eq_true_eq] at hy
    exact hy.2.1.resolve_right hna
  have hrow2 : ∀ h a x, s0.apps[a]? = some x → (s0.appl h a x).owned = true → (s0.appl h a x).varLoad = true → 0 < (s0.appl h a x).loadDuration ∧ (s0.appl h a x).loadDuration ≤ (s0.appl h a x).row.length := by
    intro h a x hx ho hv
    obtain ⟨r1, -⟩ := choice_rows _ s0.owned s0.choice switchedOn full args hs.profiles a5 h a x (by rw [← a1]; exact hx)
    exact ⟨(r1 ho hv).1, (r1 ho hv).2.1⟩
  have hrow := fun h a x hx ho hv => (hrow2 h a x hx ho hv).1
  have hinv : ProbActSim.RunInv s0 (acts.map (·.1)) acts (fun _ _ => none) s0 := by
    refine ⟨b1, rfl, rfl, rfl, rfl, b3, ?_, b4, Or.inr fun _ _ _ _ _ => rfl, ?_, fun _ _ _ _ _ _ _ c => by (cases c)⟩
    · rw [b2]
      exact ⟨hs.activities.nodup, fun _ h => h, hs.activities.proper, hs.activities.length⟩
    · intro h a x hh hx
      exact Or.inl ⟨rfl, le_of_eq (b5 h a x (by rw [← b2]; exact hh) hx (hlim.notAlways x (by rw [← a1]; exact List.mem_of_getElem? hx)))⟩
  refine ⟨ProbActSim.useAfter s0 fun _ _ => none, fun now h a => (ProbActSim.actList s0.apps ((now.lookup (((s0.apps[a]?).map fun x => x.info.activity).getD [])).getD []) (((s0.apps[a]?).map fun x => x.info.activity).getD [])).idxOf (h, a), fun _ _ => rfl, ?_, ?_⟩
  · intro now h a x h' a' x' hx hx' hact hp hp' heq
    beta_reduce at heq
    rw [hx, hx', Option.map_some, Option.map_some, Option.getD_some, Option.getD_some, ← hact] at heq
    have hmem : ∀ k c y, s0.apps[c]? = some y → y.info.activity = x.info.activity → 0 < now.performing x.info.activity k → (k, c) ∈ ProbActSim.actList s0.apps ((now.lookup x.info.activity).getD []) x.info.activity := by
      intro k c y hy hya hk
      unfold Activities.performing at hk
      obtain ⟨m, hm⟩ : ∃ m, ((now.lookup x.info.activity).getD [])[k]? = some m := by
        cases hc : ((now.lookup x.info.activity).getD [])[k]? with
        | some m => exact ⟨m, rfl⟩
        | none =>
          rw [List.getD_eq_getElem?_getD, hc] at hk
          exact absurd hk (lt_irrefl _)
      rw [List.getD_eq_getElem?_getD, hm, Option.getD_some] at hk
      unfold ProbActSim.actList
      rw [ent_cross _ _ k c (decide (m > 0)) (decide (y.info.activity = x.info.activity)) (by rw [List.getElem?_map, hm]; rfl) (by rw [List.getElem?_map, hy]; rfl)]
      exact ⟨decide_eq_true hk, decide_eq_true hya⟩
    have := (List.idxOf_inj (hmem h a x hx rfl hp)).1 heq
    exact Prod.mk.inj this
  intro hist hhist
  rw [← b2] at hhist
  obtain ⟨s, er, hi⟩ := ProbActSim.prob_run_spec s0 acts (acts.map (·.1)) hcov f T hfl hof hrow hinv hist hhist
  obtain ⟨use, euse⟩ : ∃ use, use = ProbActSim.useAfter s0 (fun _ _ => none) hist := ⟨_, rfl⟩
  refine ⟨?_, ?_⟩
  · intro i hai hdi h a x hh hx
    obtain ⟨s', e', -, hstep⟩ := ProbActSim.run_step s0 (acts.map (·.1)) hcov f T hfl hof hrow _ _ s hi i (by rw [b2]; exact hai) hdi
    obtain ⟨-, k2⟩ := ProbActSim.run_append i s s' hist s0 (fun _ _ => none) er e'
    have := hstep h a x (by rw [b2]; exact hh) hx
    rw [k2]
    beta_reduce
    rw [hx]
    exact this
  rw [← euse] at hi ⊢
  have hue : ∀ h a x, h < n → s0.apps[a]? = some x → ent s.usage h a = some (decide (s.lft h a > 0) && (s0.appl h a x).owned) := by
    intro h a x hh hx
    rw [hi.fresh.usage, ProbActSim.usageNow_ent s hi.shaped h a x (by rw [hi.owned, b2]; exact hh) (by rw [hi.apps]; exact hx)]
    unfold ProbActSim.appl
    rw [hi.owned, hi.choice]
  have hur : Rect n s0.apps.length s.usage := by
    have := ProbActSim.usageNow_rect s hi.shaped
    rw [hi.owned, b2, hi.apps, ← hi.fresh.usage] at this
    exact this
  have key : ∀ h a x, h < n → s0.apps[a]? = some x → ∃ w, (s0.appl h a x).power (decide (s.lft h a > 0) && (s0.appl h a x).owned) ⟨s.lft h a, 0⟩ = .ok w ∧ UseConsumes (s0.appl h a x) (use h a) w := by
    intro h a x hh hx
    exact ProbActSim.use_power _ _ _ (hi.uses h a x (by rw [b2]; exact hh) hx) (fun k d => hi.lasts h a x k d (by rw [b2]; exact hh) hx) (hrow2 h a x hx)
  obtain ⟨W, hW⟩ : ∃ W : Nat → Nat → Rat, ∀ h a x, h < n → s0.apps[a]? = some x → (s0.appl h a x).power (decide (s.lft h a > 0) && (s0.appl h a x).owned) ⟨s.lft h a, 0⟩ = .ok (W h a) := by
    refine ⟨fun h a => match s0.apps[a]? with
      | some x => match (s0.appl h a x).power (decide (s.lft h a > 0) && (s0.appl h a x).owned) ⟨s.lft h a, 0⟩ with
        | .ok w => w
        | .error _ => 0
      | none => 0, ?_⟩
    intro h a x hh hx
    obtain ⟨w, ew, -⟩ := key h a x hh hx
    simp only [hx, ew]
  have ho' : Rect n s0.apps.length s0.owned := by have := b1.owned; rwa [b2] at this
  have hl' : Rect n s0.apps.length s.left := by have := hi.shaped.left; rwa [hi.owned, b2, hi.apps] at this
  obtain ⟨M, eM, hM, hMe⟩ := powersOf_spec s0.apps s0.choice s0.owned s.left s.usage n ho' hl' hur W (by
    intro h a x u l hh hx hu hl
    have h1 := hue h a x hh hx
    rw [hu] at h1
    rw [Option.some.inj h1]
    have := hW h a x hh hx
    have hst : s.lft h a = l := ent_getD hl
    rw [hst] at this ⊢
    exact this)
  have eM' : s.powers = .ok M := by
    unfold ProbActSim.powers
    rw [hi.apps, hi.choice, hi.owned]
    exact eM
  have hwater : ∀ (h : Nat) (us : List Bool), s.usage[h]? = some us → s.water[h]? = some ((us.zip s0.apps).map fun q => (if q.1 then 1 else 0) * q.2.flow) := by
    intro h us hus
    unfold ProbActSim.water
    rw [List.getElem?_map, hus, hi.apps]
    rfl
  refine ⟨s, M.map List.sum, er, by unfold ProbActSim.powerDemand; simp only [bind, Except.bind, eM'], by simp [hM.1], hur.1, by unfold ProbActSim.water; rw [List.length_map]; exact hur.1, ?_⟩
  intro h hh
  constructor
  · have hr := List.getElem?_eq_getElem (show h < M.length by rw [hM.1]; exact hh)
    refine ⟨M[h]'(by rw [hM.1]; exact hh), by rw [List.getElem?_map, hr]; rfl, hM.2 _ (List.getElem_mem _), ?_⟩
    intro a x w hx hw
    have := hMe h a hh (List.getElem?_eq_some_iff.1 hx).1
    unfold ent at this
    rw [hr, Option.bind_some, hw] at this
    obtain ⟨w', e1, hw'⟩ := key h a x hh hx
    rw [hW h a x hh hx] at e1
    rw [Option.some.inj this, Except.ok.inj e1]
    exact hw'
  · have hr := List.getElem?_eq_getElem (show h < s.usage.length by rw [hur.1]; exact hh)
    have hlen := hur.2 _ (List.getElem_mem (show h < s.usage.length by rw [hur.1]; exact hh))
    refine ⟨_, _, hr, hwater h _ hr, hlen, by rw [List.length_map, List.length_zip, hlen, Nat.min_self], ?_⟩
    intro a x hx
    have h1 := hue h a x hh hx
    unfold ent at h1
    rw [hr, Option.bind_some] at h1
    refine ⟨_, h1, ?_, ?_⟩
    · rw [Bool.and_eq_true, decide_eq_true_eq]
      rcases hi.uses h a x (by rw [b2]; exact hh) hx with ⟨c1, c2⟩ | ⟨k, d, c1, c2, c3⟩
      · rw [c1]
        exact ⟨fun c => absurd c.1 (not_lt.2 c2), fun c => absurd rfl c.2⟩
      · rw [c1]
        exact ⟨fun c => ⟨c.2, fun q => by (cases q)⟩, fun c => ⟨c3, c.1⟩⟩
    · rw [List.getElem?_map, zip_get (z := ((decide (s.lft h a > 0) && (s0.appl h a x).owned), x)) h1 hx, Option.map_some]
      cases (decide (s.lft h a > 0) && (s0.appl h a x).owned) <;> simp

/-- **C111.** The simulator is not created for no household, nor without the keys for what the appliances follow. -/
theorem C111_refuses (apps : List AppData) (flags keys : Bool) (switchedOn full : ProfilesDict (List Rat)) (data : Subgroup → ActStats) (step : Rat) (n : Nat) (groups : Option (List Subgroup)) (ns : Option (List Nat))
    (gs : List Subgroup) (counts : List Nat) (acts : Activities) (args : ActSim.ActArgs) (hh : HouseholdsAre n groups ns gs counts) (s0 : ProbActSim)
    (h0 : ProbActSim.create apps flags keys switchedOn full data step n groups ns acts args = .ok s0) : 0 < n ∧ keys = true := by
  by_cases hn : n = 0
  · exfalso
    unfold ProbActSim.create at h0
    simp only [bind, Except.bind] at h0
    split at h0
    · cases h0
    · rw [if_pos hn] at h0
      cases h0
  · obtain ⟨t, ht, -, -, hk⟩ := ProbActSim.households_parse n (by omega) groups ns gs counts hh
    refine ⟨by omega, ?_⟩
    by_contra hkeys
    have hkeys : keys = false := by simpa using hkeys
    unfold ProbActSim.create at h0
    simp only [bind, Except.bind, ht] at h0
    rw [if_neg hn] at h0
    have hgs : gs.isEmpty = false := by
      rcases hh with ⟨-, -, rfl, -⟩ | ⟨-, -, h1, h2⟩
      · rfl
      · cases gs with
        | nil =>
          have : counts = [] := List.length_eq_zero_iff.1 (by simpa using h2)
          rw [this] at h1
          exact absurd h1.symm hn
        | cons g gs => rfl
    split at h0
    · cases h0
    · split at h0
      · cases h0
      · rw [hkeys, hgs] at h0
        cases h0

/-! ## An example -/

/-- A kettle that goes off with its activity, a washing machine with a load profile, a dryer that follows it, a dishwasher that follows cooking, and a television that is not probabilistic. -/
def demoProbApps : List AppData :=
  [ { info := { demoKettleInfo with targetSwitchons := 1000 }, standby := 1, meanPower := 2000, usesWater := false, flow := 0, delay := 0, switchOff := true },
    { info := { demoKettleInfo with name := "washing".toList, type := "washing".toList, activity := "laundry".toList, targetSwitchons := 100 }, standby := 2, meanPower := 500, usesWater := false, flow := 0, delay := 0, switchOff := false },
    { info := { demoKettleInfo with name := "dryer".toList, type := "dryer".toList, activity := "laundry".toList, meanDuration := 2, targetSwitchons := 100, previousType := some "washing".toList }, standby := 0, meanPower := 700, usesWater := false, flow := 0, delay := 0, switchOff := false },
    { info := { demoKettleInfo with name := "dish".toList, type := "dish".toList, activity := "cooking".toList, meanDuration := 2, targetSwitchons := 300, previousActivity := some "cooking".toList }, standby := 0, meanPower := 800, usesWater := true, flow := 2, delay := 0, switchOff := false },
    { info := { demoKettleInfo with name := "tv".toList, type := "tv".toList, probabilistic := false }, standby := 1, meanPower := 100, usesWater := false, flow := 0, delay := 0, switchOff := true } ]

/-- The load profile of the washing machine. -/
def demoProbSwitchedOn : ProfilesDict (List Rat) := [("washing".toList, [("use".toList, [500, 300])])]

/-- Cooking and laundry each take a tenth of the time, and start three times and once a day. -/
def demoProbData : Subgroup → ActStats := fun _ => { targets := [], probs := [("cooking".toList, 1 / 10), ("laundry".toList, 1 / 10)], starts := [("cooking".toList, [0, 0, 0, 1]), ("laundry".toList, [0, 1])] }

/-- Nobody does anything at first. -/
def demoProbActs : Activities := [("cooking".toList, [0, 0]), ("laundry".toList, [0, 0])]

/-- All draws below all probabilities, and two liters of water. -/
def demoProbDraws : ProbDraws := { uType := fun _ => 0, uEnd := fun _ _ => 0, uAct := fun _ _ => 0, vType := fun _ => 4, vEnd := fun _ _ => 4, vAct := fun _ _ => 4 }

/-- The first household does its laundry, the second one cooks; then nobody does anything. -/
def demoProbInputs : List (Bool × Activities × ProbDraws) :=
  [ (false, [("cooking".toList, [0, 1]), ("laundry".toList, [1, 0])], demoProbDraws), (false, demoProbActs, demoProbDraws), (false, demoProbActs, demoProbDraws) ]

theorem demoProb_kept : probApps true demoProbActs demoProbApps = demoProbApps.take 4 := by
  unfold probApps demoProbApps
  rw [List.filter_cons_of_pos (by decide +kernel), List.filter_cons_of_pos (by decide +kernel), List.filter_cons_of_pos (by decide +kernel), List.filter_cons_of_pos (by decide +kernel), List.filter_cons_of_neg (by decide +kernel)]
  rfl

example : HouseholdsAre 2 none none [[]] [2] := Or.inl ⟨rfl, rfl, rfl, rfl⟩

theorem demoProb_profiles (kept : List AppData) (h1 : ∀ x ∈ kept, decide (demoProbSwitchedOn.get x.info.type ≠ some []) = true) (h2 : ∀ x ∈ kept, ¬ x.info.AlwaysOn)
    (h3 : ∀ x ∈ kept, demoProbSwitchedOn.get x.info.type = none ∨ demoProbSwitchedOn.get x.info.type = some [("use".toList, [500, 300])]) :
    ProfilesNotEmpty kept demoProbSwitchedOn [] ∧ ActProfilesOk kept demoProbSwitchedOn [] demoActArgs := by
  refine ⟨fun x hx => ⟨fun c => by (cases c), of_decide_eq_true (h1 x hx)⟩, Or.inr ⟨rfl, ?_, ?_, ?_⟩⟩
  · intro a ha b hb _
    obtain ⟨x, hx, rfl⟩ := List.mem_map.1 ha
    obtain ⟨y, hy, rfl⟩ := List.mem_map.1 hb
    exact ⟨fun c => absurd c (h2 x hx), fun c => absurd c (h2 y hy)⟩
  · intro a x named hx hon
    exact absurd hon (h2 x (List.mem_of_getElem? hx))
  · intro a x named hx _ hf h
    rcases h3 x (List.mem_of_getElem? hx) with c | c
    · rw [c] at hf
      cases hf
    · rw [c] at hf
      obtain rfl := Option.some.inj hf
      exact ⟨_, _, rfl, by simp⟩

theorem demoProb_setup (kept : List AppData) (hk : ∀ x ∈ kept, x ∈ demoProbApps.take 4) : ProbSetup kept demoProbSwitchedOn [] demoProbData 2 [[]] demoProbActs demoActArgs := by
  have hall : ∀ x ∈ kept, decide (demoProbSwitchedOn.get x.info.type ≠ some []) = true ∧ ¬ x.info.AlwaysOn ∧ (demoProbSwitchedOn.get x.info.type = none ∨ demoProbSwitchedOn.get x.info.type = some [("use".toList, [500, 300])]) ∧
      (x.usesWater = true → 0 < x.flow) := by
    intro x hx
    have := hk x hx
    unfold demoProbApps at this
    simp only [List.take, List.mem_cons, List.not_mem_nil, or_false] at this
    rcases this with rfl | rfl | rfl | rfl <;> refine ⟨by decide +kernel, by decide +kernel, by decide +kernel, by decide +kernel⟩
  obtain ⟨p1, p2⟩ := demoProb_profiles kept (fun x hx => (hall x hx).1) (fun x hx => (hall x hx).2.1) (fun x hx => (hall x hx).2.2.1)
  exact {
    inhabited := by decide
    residents := by
      intro g hg l c
      rw [List.mem_singleton] at hg
      subst hg
      cases c
    starts := by
      intro g _ p hp
      unfold demoProbData at hp ⊢
      simp only [List.mem_cons, List.not_mem_nil, or_false] at hp ⊢
      rcases hp with rfl | rfl
      · exact ⟨_, Or.inl rfl, rfl⟩
      · exact ⟨_, Or.inr rfl, rfl⟩
    activities := ⟨by decide +kernel, by simp, by decide +kernel, by decide +kernel⟩
    flows := fun x hx => (hall x hx).2.2.2
    usable := trivial
    notEmpty := p1
    profiles := p2 }

theorem demoProb_limits : ProbLimits (probApps true demoProbActs demoProbApps) where
  notAlways := by
    rw [demoProb_kept]
    unfold demoProbApps
    simp only [List.take, List.mem_cons, List.not_mem_nil, or_false]
    rintro x (rfl | rfl | rfl | rfl) <;> decide +kernel
  follower := by
    rw [demoProb_kept]
    refine ⟨2, "washing".toList, by decide, ?_⟩
    intro a x hx
    unfold demoProbApps at hx
    rcases a with _ | _ | _ | _ | a
    · obtain rfl := Option.some.inj hx
      exact ⟨fun c => by (cases c), fun _ => rfl⟩
    · obtain rfl := Option.some.inj hx
      exact ⟨fun c => by (cases c), fun _ => rfl⟩
    · obtain rfl := Option.some.inj hx
      exact ⟨fun _ => rfl, fun c => absurd rfl c⟩
    · obtain rfl := Option.some.inj hx
      exact ⟨fun c => by (cases c), fun _ => rfl⟩
    · cases hx

example : ProbSetup (probApps true demoProbActs demoProbApps) demoProbSwitchedOn [] demoProbData 2 [[]] demoProbActs demoActArgs := by
  rw [demoProb_kept]
  exact demoProb_setup _ fun _ h => h

theorem demoProb_inputs : ∀ i ∈ demoProbInputs, ActivitiesOk 2 (demoProbActs.map (·.1)) i.2.1 ∧ ProbDrawsOk i.2.2 := by
  intro i hi
  unfold demoProbInputs at hi
  simp only [List.mem_cons, List.not_mem_nil, or_false] at hi
  rcases hi with rfl | rfl | rfl <;> exact ⟨⟨by decide +kernel, by decide +kernel, by decide +kernel, by decide +kernel⟩, ⟨fun _ => le_rfl, fun _ _ => le_rfl, fun _ _ => le_rfl⟩⟩

example : (do
    let s0 ← ProbActSim.create demoProbApps true true demoProbSwitchedOn [] demoProbData 600 2 none none demoProbActs demoActArgs
    let s1 ← ProbActSim.run s0 (demoProbInputs.take 1)
    let s2 ← ProbActSim.run s0 (demoProbInputs.take 2)
    let s3 ← ProbActSim.run s0 demoProbInputs
    let p0 ← s0.powerDemand
    let p1 ← s1.powerDemand
    let p2 ← s2.powerDemand
    let p3 ← s3.powerDemand
    .ok ([p0, p1, p2, p3], s3.usage) : Except PyErr _) =
      .ok ([[3, 3], [501, 2002], [301, 803], [703, 803]], [[false, false, true, false], [false, false, false, true]]) := by decide +kernel

/-! ## The limits -/

/-- What one would expect: with the activities of all the households the simulation never fails, however many of the appliances follow others. -/
def C111_full : Prop :=
  ∀ (apps : List AppData) (flags : Bool) (switchedOn full : ProfilesDict (List Rat)) (data : Subgroup → ActStats) (step : Rat) (n : Nat) (groups : Option (List Subgroup)) (ns : Option (List Nat))
    (gs : List Subgroup) (counts : List Nat) (acts : Activities) (args : ActSim.ActArgs), HouseholdsAre n groups ns gs counts → ProbSetup (probApps flags acts apps) switchedOn full data n gs acts args →
    ∃ s0, ProbActSim.create apps flags true switchedOn full data step n groups ns acts args = .ok s0 ∧
      ∀ hist : List (Bool × Activities × ProbDraws), (∀ i ∈ hist, ActivitiesOk n (acts.map (·.1)) i.2.1 ∧ ProbDrawsOk i.2.2) → ∃ s, ProbActSim.run s0 hist = .ok s

/-- **C111 (counterexample).** Without an appliance that follows another one the simulation fails as soon as the use of an appliance ends. -/
theorem C111_counterexample : ¬ C111_full := by
  intro h
  have hk : probApps true demoProbActs (demoProbApps.take 2) = demoProbApps.take 2 := by
    unfold probApps demoProbApps
    simp only [List.take]
    rw [List.filter_cons_of_pos (by decide +kernel), List.filter_cons_of_pos (by decide +kernel)]
    rfl
  obtain ⟨s0, e, hrun⟩ := h (demoProbApps.take 2) true demoProbSwitchedOn [] demoProbData 600 2 none none [[]] [2] demoProbActs demoActArgs (Or.inl ⟨rfl, rfl, rfl, rfl⟩) (by
    rw [hk]
    exact demoProb_setup _ fun x hx => by
      unfold demoProbApps at hx ⊢
      simp only [List.take, List.mem_cons, List.not_mem_nil, or_false] at hx ⊢
      rcases hx with rfl | rfl
      · exact Or.inl rfl
      · exact Or.inr (Or.inl rfl))
  obtain ⟨s, es⟩ := hrun demoProbInputs demoProb_inputs
  have hf : (match ProbActSim.create (demoProbApps.take 2) true true demoProbSwitchedOn [] demoProbData 600 2 none none demoProbActs demoActArgs with
    | .ok s => (match ProbActSim.run s demoProbInputs with | .ok _ => false | .error _ => true)
    | .error _ => false) = true := by decide +kernel
  rw [e] at hf
  simp only [es] at hf
  cases hf

/-- An appliance that is always on, with a load profile. -/
def demoProbFridge : List AppData :=
  demoProbApps.take 3 ++ [{ info := { demoKettleInfo with name := "fridge".toList, type := "fridge".toList, activity := "level".toList }, standby := 0, meanPower := 50, usesWater := false, flow := 0, delay := 0, switchOff := false }]

/-- **C111 (counterexample).** An always-on appliance does not stay on: this fridge, which both households own, is on after the first step and off from the second one on. -/
theorem C111_always_on_counterexample : (do
    let s0 ← ProbActSim.create demoProbFridge true true demoProbSwitchedOn [("fridge".toList, [("day".toList, [10, 20, 30])])] demoProbData 600 2 none none demoProbActs { demoActArgs with start := fun _ _ => 1 }
    let s1 ← ProbActSim.run s0 (demoProbInputs.take 1)
    let s2 ← ProbActSim.run s0 (demoProbInputs.take 2)
    let s3 ← ProbActSim.run s0 demoProbInputs
    .ok (s0.apps.map (fun x => decide (x.info.AlwaysOn)), s0.owned, [s0.usage, s1.usage, s2.usage, s3.usage].map fun u => u.map fun r => r.getD 3 false) : Except PyErr _) =
      .ok ([false, false, false, true], [[true, true, true, true], [true, true, true, true]], [[false, false], [true, true], [false, false], [false, false]]) := by decide +kernel

end Demod
