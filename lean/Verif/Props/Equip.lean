import Verif.Lemmas.Equip
import Verif.Props.Utils

/-! # C84–C87: what the households own -/

namespace Demod

/-! ## C84 -/

/-- The households given by subgroup: the counts must add up and there must be one, and the first households are those of the first subgroup, and so on. -/
theorem C84_subgroups (n : Nat) (subs : List Subgroup) (ns : List Nat) :
    (ns.sum = n ∧ ns ≠ [] → ∃ t, parseHouseholds n (some subs) (some ns) = .ok (subs, t) ∧ t.length = n ∧ ∀ (h k : Nat), t[h]? = some k ↔ InSubgroup ns h k) ∧
    (¬ (ns.sum = n ∧ ns ≠ []) → parseHouseholds n (some subs) (some ns) = .error .valueError) ∧
    parseHouseholds n (some subs) none = .error .attributeError ∧ parseHouseholds n none (some ns) = .error .attributeError := by
  refine ⟨?_, ?_, rfl, rfl⟩
  · rintro ⟨h1, h2⟩
    refine ⟨hhTypesFrom 0 ns, by simp [parseHouseholds, h1, h2], by rw [hhTypesFrom_length, h1], fun h k => ?_⟩
    rw [hhTypesFrom_get]
    simp
  · intro h
    unfold parseHouseholds
    by_cases h1 : ns.sum = n
    · have h2 : ns = [] := by by_contra h2; exact h ⟨h1, h2⟩
      simp [h2]
    · simp [h1]

example : parseHouseholds 5 (some [[], []]) (some [2, 3]) = .ok ([[], []], [0, 0, 1, 1, 1]) ∧ InSubgroup [2, 3] 4 1 := by
  refine ⟨by rfl, ?_⟩
  unfold InSubgroup
  decide

/-- `'basic'`: each household owns each appliance with the probability given with the appliance, a draw of its own deciding; so an appliance of
probability 0 is owned by nobody and one of probability 1 by everybody. -/
theorem C84_basic (apps : List AppInfo) (subs : List Subgroup) (hhTypes : List Nat) (u : Nat → Nat → Rat) :
    ∃ owned, sampleAvailable apps subs hhTypes u .basic = .ok owned ∧ owned.length = hhTypes.length ∧
      ∀ (h a : Nat) x, h < hhTypes.length → apps[a]? = some x →
        (owned[h]?.bind fun r => r[a]?) = some (decide (u h a < x.equippedProb)) ∧
        (0 ≤ u h a → u h a < 1 → (x.equippedProb = 0 → (owned[h]?.bind fun r => r[a]?) = some false) ∧ (x.equippedProb = 1 → (owned[h]?.bind fun r => r[a]?) = some true)) := by
  refine ⟨_, rfl, by simp [drawOwned], fun h a x hh ha => ?_⟩
  have key := drawOwned_get u (hhTypes.map fun _ => apps.map (·.equippedProb)) h a (apps.map (·.equippedProb)) x.equippedProb (by simp [hh]) (by simp [ha])
  refine ⟨key, fun h0 h1 => ⟨fun e => ?_, fun e => ?_⟩⟩
  · rw [key, e, decide_eq_false (not_lt.mpr h0)]
  · rw [key, e, decide_eq_true h1]

/-- `'subgroup'`: the same with the probability found in the ownership data of the household's own subgroup. The `k`-th appliance of the closest type `T` uses the entry of `T`, `T_2`, …,
0 when it is missing, and an appliance without closest type its own probability. -/
theorem C84_subgroup (n : Nat) (apps : List AppInfo) (subs : List Subgroup) (ns : List Nat) (dict : Subgroup → List (Str × Rat)) (u : Nat → Nat → Rat) (hn : ns.sum = n) (h0 : ns ≠ [])
    (hs : ns.length ≤ subs.length) :
    ∃ t owned, parseHouseholds n (some subs) (some ns) = .ok (subs, t) ∧ sampleAvailable apps subs t u (.subgroup dict) = .ok owned ∧ owned.length = n ∧
      ∀ (h k a : Nat) s x, InSubgroup ns h k → subs[k]? = some s → apps[a]? = some x →
        (findClosestType x.type ((dict s).map (·.1)) = none → (owned[h]?.bind fun r => r[a]?) = some (decide (u h a < x.equippedProb))) ∧
        (∀ T, findClosestType x.type ((dict s).map (·.1)) = some T →
          (owned[h]?.bind fun r => r[a]?) = some (decide (u h a < ((dict s).lookup (copyKey T (copyNumber (apps.map fun y => findClosestType y.type ((dict s).map (·.1))) a T))).getD 0))) := by
  obtain ⟨t, ht, hlen, hin⟩ := (C84_subgroups n subs ns).1 ⟨hn, h0⟩
  obtain ⟨probs, hprobs⟩ := mapM_all_ok (fun s => getOwnership (apps.map (·.type)) (dict s) (apps.map (·.equippedProb))) subs (fun s _ => by
    obtain ⟨out, ho, -⟩ := C31_ownership (apps.map (·.type)) (dict s) (apps.map (·.equippedProb)) (by simp)
    exact ⟨out, ho⟩)
  obtain ⟨pl, pget⟩ := mapM_ok_get _ _ _ hprobs
  have hk : ∀ (h k : Nat), InSubgroup ns h k → k < subs.length := by
    rintro h k ⟨h1, h2⟩
    by_contra hc
    rw [List.take_of_length_le (by omega)] at h1 h2
    omega
  obtain ⟨rows, hrows⟩ := mapM_all_ok (fun k => pyGet probs k) t (fun k hkt => by
    obtain ⟨h, hh⟩ := List.getElem?_of_mem hkt
    have := hk h k ((hin h k).mp hh)
    refine ⟨probs[k]'(by omega), ?_⟩
    unfold pyGet
    rw [List.getElem?_eq_getElem (by omega)])
  obtain ⟨rl, rget⟩ := mapM_ok_get _ _ _ hrows
  refine ⟨t, drawOwned u rows, ht, ?_, by simp [drawOwned, rl, hlen], fun h k a s x hi hsk ha => ?_⟩
  · change (do let probs ← subs.mapM fun s => getOwnership (apps.map fun x : AppInfo => x.type) (dict s) (apps.map fun x : AppInfo => x.equippedProb); let rows ← t.mapM fun k => pyGet probs k; Except.ok (drawOwned u rows)) = _
    rw [hprobs]
    change (do let rows ← t.mapM fun k => pyGet probs k; Except.ok (drawOwned u rows)) = _
    rw [hrows]
    rfl
  · obtain ⟨row, hrow, hpy⟩ := rget h k ((hin h k).mpr hi)
    obtain ⟨pr, hpr, hget⟩ := pget k s hsk
    have hrp : row = pr := by
      unfold pyGet at hpy
      rw [hpr] at hpy
      exact (Except.ok.inj hpy).symm
    subst hrp
    obtain ⟨out, ho, hol, hspec⟩ := C31_ownership (apps.map (·.type)) (dict s) (apps.map (·.equippedProb)) (by simp)
    have : out = row := by rw [ho] at hget; exact Except.ok.inj hget
    subst this
    have hal : a < apps.length := (List.getElem?_eq_some_iff.mp ha).1
    have hax : apps[a] = x := (List.getElem?_eq_some_iff.mp ha).2
    obtain ⟨c1, c2⟩ := hspec a (by simpa using hal)
    simp only [List.getElem_map, hax] at c1 c2
    refine ⟨fun e => ?_, fun T e => ?_⟩
    · refine drawOwned_get u rows h a out _ hrow ?_
      rw [c1 e]
      simp [ha]
    · refine drawOwned_get u rows h a out _ hrow ?_
      rw [c2 T e, List.map_map]
      rfl

/-- `'all'` gives everything to everybody, `'correlated'` and unknown names are refused. -/
theorem C84_others (apps : List AppInfo) (subs : List Subgroup) (hhTypes : List Nat) (u : Nat → Nat → Rat) :
    (∃ owned, sampleAvailable apps subs hhTypes u .all = .ok owned ∧ ∀ h a, h < hhTypes.length → a < apps.length → (owned[h]?.bind fun r => r[a]?) = some true) ∧
    sampleAvailable apps subs hhTypes u .correlated = .error .notImplementedError ∧ sampleAvailable apps subs hhTypes u .unknown = .error .valueError := by
  refine ⟨⟨_, rfl, fun h a hh ha => ?_⟩, rfl, rfl⟩
  simp [hh, ha]

/-- `'set_defined'`: the households of a subgroup own the appliances whose names are in its set. -/
theorem C84_set_partial (n : Nat) (apps : List AppInfo) (subs : List Subgroup) (ns : List Nat) (sets : List (List Str)) (u : Nat → Nat → Rat) (hn : ns.sum = n) (h0 : ns ≠ [])
    (hs : ns.length ≤ subs.length) (hl : subs.length ≤ sets.length) :
    ∃ t owned, parseHouseholds n (some subs) (some ns) = .ok (subs, t) ∧ sampleAvailable apps subs t u (.setDefined sets) = .ok owned ∧ owned.length = n ∧
      ∀ (h k a : Nat) set x, InSubgroup ns h k → sets[k]? = some set → apps[a]? = some x → (owned[h]?.bind fun r => r[a]?) = some (decide (x.name ∈ set)) := by
  obtain ⟨t, ht, hlen, hin⟩ := (C84_subgroups n subs ns).1 ⟨hn, h0⟩
  obtain ⟨os, hos⟩ := mapM_all_ok (fun k => (pyGet sets k).map fun set => apps.map fun a : AppInfo => decide (a.name ∈ set)) (List.range subs.length) (fun k hk => by
    have : k < subs.length := by simpa using hk
    refine ⟨apps.map fun a : AppInfo => decide (a.name ∈ sets[k]'(by omega)), ?_⟩
    unfold pyGet
    rw [List.getElem?_eq_getElem (by omega)]
    rfl)
  obtain ⟨ol, oget⟩ := mapM_ok_get _ _ _ hos
  rw [List.length_range] at ol
  have hk : ∀ (h k : Nat), InSubgroup ns h k → k < subs.length := by
    rintro h k ⟨h1, h2⟩
    by_contra hc
    rw [List.take_of_length_le (by omega)] at h1 h2
    omega
  obtain ⟨rows, hrows⟩ := mapM_all_ok (fun k => pyGet os k) t (fun k hkt => by
    obtain ⟨h, hh⟩ := List.getElem?_of_mem hkt
    have := hk h k ((hin h k).mp hh)
    refine ⟨os[k]'(by omega), ?_⟩
    unfold pyGet
    rw [List.getElem?_eq_getElem (by omega)])
  obtain ⟨rl, rget⟩ := mapM_ok_get _ _ _ hrows
  refine ⟨t, rows, ht, ?_, by rw [rl, hlen], fun h k a set x hi hsk ha => ?_⟩
  · change (do let owned ← (List.range subs.length).mapM fun k => (pyGet sets k).map fun set => apps.map fun a : AppInfo => decide (a.name ∈ set); t.mapM fun k => pyGet owned k) = _
    rw [hos]
    exact hrows
  · obtain ⟨row, hrow, hpy⟩ := rget h k ((hin h k).mpr hi)
    obtain ⟨o, ho, hget⟩ := oget k k (by rw [List.getElem?_range (hk h k hi)])
    unfold pyGet at hpy hget
    rw [ho] at hpy
    rw [hsk] at hget
    have e1 := Except.ok.inj hpy
    have e2 := Except.ok.inj hget
    rw [hrow, ← e1, ← e2]
    simp [ha]

/-- The demonstration appliances: a fridge, a washing machine, and a tumble dryer used after it. -/
def demoAppliances : List AppInfo :=
  [ { name := "fridge_1".toList, type := "fridge".toList, activity := "level".toList, equippedProb := 1, probabilistic := false, meanDuration := 1, switchOnProb := 0, targetSwitchons := 0,
      previousActivity := none, previousType := none },
    { name := "washer".toList, type := "washing_machine".toList, activity := "laundry".toList, equippedProb := 9 / 10, probabilistic := true, meanDuration := 6, switchOnProb := 1 / 2, targetSwitchons := 200,
      previousActivity := none, previousType := none },
    { name := "dryer".toList, type := "tumble_dryer".toList, activity := "laundry".toList, equippedProb := 1 / 3, probabilistic := true, meanDuration := 6, switchOnProb := 1 / 2, targetSwitchons := 50,
      previousActivity := none, previousType := some "washing_machine".toList } ]

example : sampleAvailable demoAppliances [[], []] [0, 1] (fun _ _ => 1 / 2) .basic = .ok [[true, true, false], [true, true, false]] ∧
    sampleAvailable demoAppliances [[], []] [0, 1] (fun _ _ => 1 / 2) (.subgroup fun _ => [("dryer".toList, 8 / 10), ("fridge".toList, 1 / 10)]) = .ok [[false, true, true], [false, true, true]] ∧
    sampleAvailable demoAppliances [[], []] [0, 1] (fun _ _ => 1 / 2) (.setDefined [["dryer".toList], ["washer".toList, "dryer".toList]]) = .ok [[false, false, true], [false, true, true]] := by decide +kernel

/-- What the code says about `'set_defined'`: a list of sets of another length than the list of subgroups is refused with `ValueError`. -/
def C84_full : Prop :=
  ∀ (apps : List AppInfo) (subs : List Subgroup) (hhTypes : List Nat) (u : Nat → Nat → Rat) (sets : List (List Str)), (∀ k ∈ hhTypes, k < subs.length) → sets.length ≠ subs.length →
    sampleAvailable apps subs hhTypes u (.setDefined sets) = .error .valueError

/-- Too many sets pass unnoticed, too few give an `IndexError`. -/
theorem C84_counterexample : ¬ C84_full ∧
    (∃ owned, sampleAvailable demoAppliances [[]] [0] (fun _ _ => 0) (.setDefined [["dryer".toList], ["washer".toList]]) = .ok owned) ∧
    sampleAvailable demoAppliances [[], []] [0, 0] (fun _ _ => 0) (.setDefined [["dryer".toList]]) = .error .indexError := by
  refine ⟨fun h => ?_, ⟨[[false, false, true]], by decide +kernel⟩, by decide +kernel⟩
  have := h demoAppliances [[]] [0] (fun _ _ => 0) [["dryer".toList], ["washer".toList]] (by decide) (by decide)
  revert this
  decide +kernel

/-! ## C85 -/

theorem choosePass_spec (apps : List AppInfo) (owned : Nat → Nat → Bool) (always : Bool) (dict : ProfilesDict (List Rat)) (draw : Nat → Nat → Nat) (s s' : ProfileChoice)
    (h : choosePass apps owned always dict draw s = .ok s') :
    (∀ (a : Nat) x, apps[a]? = some x → s'.varLoad a = (((dict.get x.type).isSome && (decide (x.activity ∈ alwaysOn) == always)) || s.varLoad a)) ∧
    (∀ T, ¬ (∃ x ∈ apps, x.type = T ∧ (dict.get T).isSome ∧ (decide (x.activity ∈ alwaysOn) == always) = true) → s'.loads T = s.loads T ∧
      ∀ (h a : Nat) x, apps[a]? = some x → x.type = T → s'.id h a = s.id h a ∧ s'.duration h a = s.duration h a) ∧
    (∀ T named, (∃ x ∈ apps, x.type = T ∧ (decide (x.activity ∈ alwaysOn) == always) = true) → dict.get T = some named →
      (∃ qs, padProfiles (named.map (·.2)) = .ok qs ∧ s'.loads T = some qs) ∧
      ∀ (h a : Nat) x, apps[a]? = some x → x.type = T →
        (owned h a = true → s'.id h a = draw h a ∧ s'.duration h a = ((named.map (·.2)).getD (draw h a) []).length) ∧
        (owned h a = false → s'.id h a = s.id h a ∧ s'.duration h a = s.duration h a)) := by
  unfold choosePass at h
  obtain ⟨h1, h2, h3⟩ := chooseTypes_spec apps owned dict draw _ _ s' h (List.nodup_dedup _)
  refine ⟨fun a x hx => ?_, fun T hT => ?_, fun T named hT hn => ?_⟩
  · rw [h1 a]
    simp [hx]
  · obtain ⟨i1, i2⟩ := h2 T (by
      intro hm
      rw [List.mem_dedup, List.mem_map] at hm
      obtain ⟨x, hx, e⟩ := hm
      rw [List.mem_filter, Bool.and_eq_true] at hx
      exact hT ⟨x, hx.1, e, by rw [← e]; exact hx.2.1, hx.2.2⟩)
    exact ⟨i1, i2⟩
  · obtain ⟨x, hx, e, hc⟩ := hT
    exact h3 T named (by
      rw [List.mem_dedup, List.mem_map]
      refine ⟨x, ?_, e⟩
      rw [List.mem_filter, Bool.and_eq_true]
      exact ⟨hx, by rw [e, hn]; rfl, hc⟩) hn

/-- `'uniform'`, when no type has both always-on and other appliances: an owned appliance whose type has profiles in the dictionary for its kind uses the profile drawn for it among those of
its type, with its own length, and the row kept of it is that profile followed by zeros; every other appliance of every household has no profile. -/
theorem C85_uniform_partial (apps : List AppInfo) (owned : Nat → Nat → Bool) (switchedOn full : ProfilesDict (List Rat)) (draw draw' : Nat → Nat → Nat) (s : ProfileChoice) (hsep : Separated apps)
    (h : chooseProfiles apps owned switchedOn full draw draw' .uniform = .ok s) (hh a : Nat) (x : AppInfo) (hx : apps[a]? = some x) :
    (∀ named p name, x.AlwaysOn → full.get x.type = some named → named[draw' hh a]? = some (name, p) → s.varLoad a = true ∧
      (owned hh a = true → s.duration hh a = p.length ∧ ∃ rows n, s.loads x.type = some rows ∧ rows[s.id hh a]? = some (p ++ List.replicate n 0))) ∧
    (∀ named p name, ¬ x.AlwaysOn → switchedOn.get x.type = some named → named[draw hh a]? = some (name, p) → s.varLoad a = true ∧
      (owned hh a = true → s.duration hh a = p.length ∧ ∃ rows n, s.loads x.type = some rows ∧ rows[s.id hh a]? = some (p ++ List.replicate n 0))) ∧
    ((x.AlwaysOn → full.get x.type = none) → (¬ x.AlwaysOn → switchedOn.get x.type = none) → s.varLoad a = false ∧ s.duration hh a = 0) ∧
    (owned hh a = false → s.duration hh a = 0) := by
  have hmem : x ∈ apps := List.mem_of_getElem? hx
  unfold chooseProfiles at h
  cases hc : choosePass apps owned false switchedOn draw .none' with
  | error e => simp only [hc] at h; cases h
  | ok s1 =>
    have h : choosePass apps owned true full draw' s1 = .ok s := by
      simp only [hc] at h
      exact h
    obtain ⟨f1, f2, f3⟩ := choosePass_spec _ _ _ _ _ _ _ hc
    obtain ⟨g1, g2, g3⟩ := choosePass_spec _ _ _ _ _ _ _ h
    have hget : ∀ (named : SDict (List Rat)) d name p, named[d]? = some (name, p) → (named.map (·.2))[d]? = some p ∧ (named.map (·.2)).getD d [] = p := by
      intro named d name p hp
      have : (named.map (·.2))[d]? = some p := by simp [hp]
      exact ⟨this, by rw [List.getD_eq_getElem?_getD, this]; rfl⟩
    refine ⟨fun named p name ha hn hp => ?_, fun named p name ha hn hp => ?_, fun ha hb => ?_, fun ho => ?_⟩
    · have hin : x.activity ∈ alwaysOn := (mem_alwaysOn x).mpr ha
      refine ⟨by rw [g1 a x hx, hn]; simp [hin], fun ho => ?_⟩
      obtain ⟨⟨qs, hq, hl⟩, hrest⟩ := g3 x.type named ⟨x, hmem, rfl, by simp [hin]⟩ hn
      obtain ⟨e1, e2⟩ := (hrest hh a x hx rfl).1 ho
      obtain ⟨hp1, hp2⟩ := hget named _ name p hp
      refine ⟨by rw [e2, hp2], ?_⟩
      obtain ⟨n, hn'⟩ := padProfiles_get _ _ hq (draw' hh a) p hp1
      exact ⟨qs, n, hl, by rw [e1]; exact hn'⟩
    · have hin : x.activity ∉ alwaysOn := fun hc => ha ((mem_alwaysOn x).mp hc)
      refine ⟨by rw [g1 a x hx, f1 a x hx, hn]; simp [hin], fun ho => ?_⟩
      obtain ⟨⟨qs, hq, hl⟩, hrest⟩ := f3 x.type named ⟨x, hmem, rfl, by simp [hin]⟩ hn
      obtain ⟨i1, i2⟩ := g2 x.type (by
        rintro ⟨y, hy, hty, -, hya⟩
        have : y.AlwaysOn := (mem_alwaysOn y).mp (by simpa using hya)
        exact ha ((hsep x hmem y hy hty.symm).mpr this))
      obtain ⟨e1, e2⟩ := (hrest hh a x hx rfl).1 ho
      obtain ⟨j1, j2⟩ := i2 hh a x hx rfl
      obtain ⟨hp1, hp2⟩ := hget named _ name p hp
      refine ⟨by rw [j2, e2, hp2], ?_⟩
      obtain ⟨n, hn'⟩ := padProfiles_get _ _ hq (draw hh a) p hp1
      exact ⟨qs, n, by rw [i1, hl], by rw [j1, e1]; exact hn'⟩
    · have n1 : ¬ (∃ y ∈ apps, y.type = x.type ∧ (switchedOn.get x.type).isSome ∧ (decide (y.activity ∈ alwaysOn) == false) = true) := by
        rintro ⟨y, hy, hty, hs, hya⟩
        have hny : ¬ y.AlwaysOn := fun hc => by
          have := (mem_alwaysOn y).mpr hc
          simp [this] at hya
        rw [hb (fun hxa => hny ((hsep x hmem y hy hty.symm).mp hxa))] at hs
        cases hs
      have n2 : ¬ (∃ y ∈ apps, y.type = x.type ∧ (full.get x.type).isSome ∧ (decide (y.activity ∈ alwaysOn) == true) = true) := by
        rintro ⟨y, hy, hty, hs, hya⟩
        have hny : y.AlwaysOn := (mem_alwaysOn y).mp (by simpa using hya)
        rw [ha ((hsep x hmem y hy hty.symm).mpr hny)] at hs
        cases hs
      refine ⟨?_, ?_⟩
      · rw [g1 a x hx, f1 a x hx]
        by_cases hxa : x.AlwaysOn
        · rw [ha hxa]
          simp [(mem_alwaysOn x).mpr hxa, ProfileChoice.none']
        · rw [hb hxa]
          have : x.activity ∉ alwaysOn := fun hc => hxa ((mem_alwaysOn x).mp hc)
          simp [this, ProfileChoice.none']
      · rw [((g2 x.type n2).2 hh a x hx rfl).2, ((f2 x.type n1).2 hh a x hx rfl).2]
        rfl
    · have hz1 : s1.duration hh a = 0 := by
        by_cases hT : ∃ y ∈ apps, y.type = x.type ∧ (switchedOn.get x.type).isSome ∧ (decide (y.activity ∈ alwaysOn) == false) = true
        · obtain ⟨y, hy, hty, hs, hya⟩ := hT
          obtain ⟨named, hn⟩ := Option.isSome_iff_exists.mp hs
          rw [(((f3 x.type named ⟨y, hy, hty, hya⟩ hn).2 hh a x hx rfl).2 ho).2]
          rfl
        · rw [((f2 x.type hT).2 hh a x hx rfl).2]
          rfl
      by_cases hT : ∃ y ∈ apps, y.type = x.type ∧ (full.get x.type).isSome ∧ (decide (y.activity ∈ alwaysOn) == true) = true
      · obtain ⟨y, hy, hty, hs, hya⟩ := hT
        obtain ⟨named, hn⟩ := Option.isSome_iff_exists.mp hs
        rw [(((g3 x.type named ⟨y, hy, hty, hya⟩ hn).2 hh a x hx rfl).2 ho).2, hz1]
      · rw [((g2 x.type hT).2 hh a x hx rfl).2, hz1]

/-- The choice is made unless an appliance has a type that is in the dictionary for its kind without any profile. -/
theorem C85_succeeds (apps : List AppInfo) (owned : Nat → Nat → Bool) (switchedOn full : ProfilesDict (List Rat)) (draw draw' : Nat → Nat → Nat) :
    (∃ s, chooseProfiles apps owned switchedOn full draw draw' .uniform = .ok s) ↔
      ∀ x ∈ apps, (x.AlwaysOn → full.get x.type ≠ some []) ∧ (¬ x.AlwaysOn → switchedOn.get x.type ≠ some []) := by
  have pass : ∀ always dict draw s, (∃ s', choosePass apps owned always dict draw s = .ok s') ↔ ∀ x ∈ apps, (decide (x.activity ∈ alwaysOn) == always) = true → dict.get x.type ≠ some [] := by
    intro always dict draw s
    unfold choosePass
    refine (chooseTypes_ok apps owned dict draw _ _).trans ⟨fun h x hx hc he => ?_, fun h T hT => ?_⟩
    · refine h x.type ?_ he
      rw [List.mem_dedup, List.mem_map]
      exact ⟨x, by rw [List.mem_filter, Bool.and_eq_true]; exact ⟨hx, by rw [he]; rfl, hc⟩, rfl⟩
    · rw [List.mem_dedup, List.mem_map] at hT
      obtain ⟨x, hx, e⟩ := hT
      rw [List.mem_filter, Bool.and_eq_true] at hx
      rw [← e]
      exact h x hx.1 hx.2.2
  unfold chooseProfiles
  constructor
  · rintro ⟨s, h⟩ x hx
    cases hc : choosePass apps owned false switchedOn draw .none' with
    | error e => simp only [hc] at h; cases h
    | ok s1 =>
      have h : choosePass apps owned true full draw' s1 = .ok s := by
        simp only [hc] at h
        exact h
      refine ⟨fun ha => (pass _ _ _ _).mp ⟨s, h⟩ x hx (by simp [(mem_alwaysOn x).mpr ha]), fun ha => (pass _ _ _ _).mp ⟨s1, hc⟩ x hx ?_⟩
      have : x.activity ∉ alwaysOn := fun hc => ha ((mem_alwaysOn x).mp hc)
      simp [this]
  · intro h
    obtain ⟨s1, h1⟩ := (pass false switchedOn draw .none').mpr fun x hx hc => (h x hx).2 fun ha => by
      simp [(mem_alwaysOn x).mpr ha] at hc
    obtain ⟨s2, h2⟩ := (pass true full draw' s1).mpr fun x hx hc => (h x hx).1 ((mem_alwaysOn x).mp (by simpa using hc))
    refine ⟨s2, ?_⟩
    change (do let s ← choosePass apps owned false switchedOn draw .none'; choosePass apps owned true full draw' s) = _
    rw [h1]
    exact h2

/-- Profiles of washing machines and fridges. -/
def demoSwitched : ProfilesDict (List Rat) := [("washing_machine".toList, [("a".toList, [100, 2000]), ("b".toList, [150, 1800, 500])])]

/-- A day of a fridge, of four samples. -/
def demoFull : ProfilesDict (List Rat) := [("fridge".toList, [("f".toList, [80, 0, 80, 0])])]

example : ∃ s, chooseProfiles demoAppliances (fun _ _ => true) demoSwitched demoFull (fun h _ => h % 2) (fun _ _ => 0) .uniform = .ok s ∧
    (List.range 3).map s.varLoad = [true, true, false] ∧ (List.range 2).map (fun h => (List.range 3).map (s.duration h)) = [[4, 2, 0], [4, 3, 0]] ∧
    s.loads "washing_machine".toList = some [[100, 2000, 0], [150, 1800, 500]] := by
  exact ⟨_, rfl, by decide +kernel, by decide +kernel, by decide +kernel⟩

example : Separated demoAppliances := by unfold Separated AppInfo.AlwaysOn demoAppliances; decide +kernel

/-- Two chargers of one type, one always on and one switched on with an activity. -/
def demoMixed : List AppInfo :=
  [ { name := "standby".toList, type := "charger".toList, activity := "constant".toList, equippedProb := 1, probabilistic := false, meanDuration := 1, switchOnProb := 0, targetSwitchons := 0,
      previousActivity := none, previousType := none },
    { name := "phone".toList, type := "charger".toList, activity := "electronics".toList, equippedProb := 1, probabilistic := false, meanDuration := 1, switchOnProb := 0, targetSwitchons := 0,
      previousActivity := none, previousType := none } ]

/-- The full claim: an owned appliance that is not always on and has profiles for its use gets one of those. -/
def C85_full : Prop :=
  ∀ (apps : List AppInfo) (owned : Nat → Nat → Bool) (switchedOn full : ProfilesDict (List Rat)) (draw draw' : Nat → Nat → Nat) (s : ProfileChoice),
    chooseProfiles apps owned switchedOn full draw draw' .uniform = .ok s → ∀ (h a : Nat) x named name p, apps[a]? = some x → ¬ x.AlwaysOn → owned h a = true →
      switchedOn.get x.type = some named → named[draw h a]? = some (name, p) → s.duration h a = p.length

/-- When a type has both kinds of appliances, the switched-on ones get the full-day profile of the always-on ones. -/
theorem C85_counterexample : ¬ C85_full := by
  intro h
  have := h demoMixed (fun _ _ => true) [("charger".toList, [("use".toList, [5, 5])])] [("charger".toList, [("day".toList, [1, 1, 1, 1, 1])])] (fun _ _ => 0) (fun _ _ => 0) _ rfl 0 1 _ _ _ _ rfl
    (by unfold AppInfo.AlwaysOn; decide +kernel) rfl rfl rfl
  revert this
  decide +kernel

/-- An appliance that is always on starts somewhere within its profile, except on the last sample. -/
theorem C85_initial (d u : Nat) (h : 1 < d) : ∃ n, initialSteps true d u = .ok n ∧ 1 ≤ n ∧ n < d := by
  have := Nat.mod_lt u (show d - 1 > 0 by omega)
  exact ⟨1 + u % (d - 1), by simp [initialSteps, h]; omega, by omega, by omega⟩

/-- A profile of one sample of an appliance that is always on is an error. -/
theorem C85_initial_counterexample (u : Nat) : initialSteps true 1 u = .error .valueError := rfl

example : initialSteps true 24 40 = .ok 18 := by decide

/-! ## C86 -/

/-- The value computed for an appliance: by its previous type if there are appliances of it, else what the activities gave. -/
theorem switchOnProbs_get (step : Rat) (nResidents : Option Rat) (dict : List (Str × Rat)) (probs : List (Str × Rat)) (starts : List (Str × List Rat)) (apps : List AppInfo) (out : List (Option Rat))
    (h : switchOnProbs step nResidents dict probs starts apps = .ok out) : ∃ targets, getOwnership (apps.map (·.type)) dict (apps.map (·.targetSwitchons)) = .ok targets ∧ targets.length = apps.length ∧
      ∀ (a : Nat) x t, apps[a]? = some x → targets[a]? = some t → out[a]? = some (match x.previousType with
        | none => roundsOf (stepsPerYear step) (nResidents.getD (23 / 10)) starts x t probs (some 0)
        | some T => if T ∈ apps.map (·.type) then npDiv t (((List.zip apps targets).filter fun r => decide (r.1.type = T)).map (·.2)).sum
          else roundsOf (stepsPerYear step) (nResidents.getD (23 / 10)) starts x t probs (some 0)) := by
  obtain ⟨targets, ht, htl, -⟩ := C31_ownership (apps.map (·.type)) dict (apps.map (·.targetSwitchons)) (by simp)
  rw [List.length_map] at htl
  refine ⟨targets, ht, htl, fun a x t hx hta => ?_⟩
  have hz : (List.zip apps targets).length = apps.length := by rw [List.length_zip, htl, min_self]
  have hza : (List.zip apps targets)[a]? = some (x, t) := by
    rw [List.getElem?_zip_eq_some]
    exact ⟨hx, hta⟩
  have hfst : (List.zip apps targets).map (fun r => r.1.type) = apps.map (·.type) := by
    rw [show (fun r : AppInfo × Rat => r.1.type) = (·.type) ∘ Prod.fst from rfl, ← List.map_map, List.map_fst_zip (by omega)]
  unfold switchOnProbs at h
  rw [ht] at h
  change (do let acc ← switchOnActivities (stepsPerYear step) (nResidents.getD (23 / 10)) starts (List.zip apps targets) probs (apps.map fun _ => some 0); Except.ok (switchOnTypes (List.zip apps targets) acc)) = _ at h
  cases hacc : switchOnActivities (stepsPerYear step) (nResidents.getD (23 / 10)) starts (List.zip apps targets) probs (apps.map fun _ => some 0) with
  | error e => rw [hacc] at h; cases h
  | ok acc =>
    rw [hacc] at h
    have := Except.ok.inj h
    subst this
    obtain ⟨al, aget⟩ := switchOnActivities_get _ _ _ _ _ _ _ (by rw [hz]; simp) hacc
    have := aget a x t (some 0) hza (by rw [List.getElem?_map, hx]; rfl)
    unfold switchOnTypes
    rw [List.getElem?_zipWith, hza, this, hfst]
    rfl

/-- The activities must all have data about their starts. -/
theorem C86_succeeds (step : Rat) (nResidents : Option Rat) (dict : List (Str × Rat)) (probs : List (Str × Rat)) (starts : List (Str × List Rat)) (apps : List AppInfo) :
    (∃ out, switchOnProbs step nResidents dict probs starts apps = .ok out) ↔ ∀ p ∈ probs, ∃ s ∈ starts, s.1 = p.1 := by
  obtain ⟨targets, ht, htl, -⟩ := C31_ownership (apps.map (·.type)) dict (apps.map (·.targetSwitchons)) (by simp)
  have hkey : ∀ act, (lookupA starts act).isSome ↔ ∃ s ∈ starts, s.1 = act := by
    intro act
    induction starts with
    | nil => simp [lookupA]
    | cons c cs ih =>
      obtain ⟨k, v⟩ := c
      unfold lookupA
      by_cases hk : k = act
      · simp [hk]
      · simp [hk, ih]
  have := switchOnActivities_ok (stepsPerYear step) (nResidents.getD (23 / 10)) starts (List.zip apps targets) probs (apps.map fun _ => some 0)
  simp only [hkey] at this
  rw [← this]
  unfold switchOnProbs
  rw [ht]
  change (∃ out, (do let acc ← switchOnActivities (stepsPerYear step) (nResidents.getD (23 / 10)) starts (List.zip apps targets) probs (apps.map fun _ => some 0); Except.ok (switchOnTypes (List.zip apps targets) acc)) = Except.ok out) ↔ _
  cases switchOnActivities (stepsPerYear step) (nResidents.getD (23 / 10)) starts (List.zip apps targets) probs (apps.map fun _ => some 0) with
  | error e => exact ⟨fun h => (by obtain ⟨o, h⟩ := h; cases h), fun h => (by obtain ⟨o, h⟩ := h; cases h)⟩
  | ok acc => exact ⟨fun _ => ⟨acc, rfl⟩, fun _ => ⟨_, rfl⟩⟩

/-- The probabilities are calibrated. Of an appliance with the target `t` per year, with the probability `p`:
1. when it is only used with an activity, `p` times the steps of that activity in a year in which the appliance is not running is `t` (at least one step is assumed);
2. when it is started after an activity, `p` times the ends of that activity in a year, over all residents, is `t`, provided its own activity is not one that comes later in the data;
3. when it is started after the use of a type of appliance, `p` times the uses of that type is `t`;
4. when nothing applies, `p` is 0. -/
theorem C86_calibrated_partial (step : Rat) (nResidents : Option Rat) (dict : List (Str × Rat)) (probs : List (Str × Rat)) (starts : List (Str × List Rat)) (apps : List AppInfo) (out : List (Option Rat))
    (h : switchOnProbs step nResidents dict probs starts apps = .ok out) : ∃ targets, getOwnership (apps.map (·.type)) dict (apps.map (·.targetSwitchons)) = .ok targets ∧ targets.length = apps.length ∧
      ∀ (a : Nat) x t, apps[a]? = some x → targets[a]? = some t →
        ((∀ T, x.previousType = some T → ∀ y ∈ apps, y.type ≠ T) →
          (∀ pre mean post, probs = pre ++ (x.activity, mean) :: post → (∀ p ∈ post, p.1 ≠ x.activity) → (∀ p ∈ probs, x.previousActivity ≠ some p.1) →
            ∃ p, out[a]? = some (some p) ∧ p * max (365.25 * 24 * 60 * 60 / step * mean - x.meanDuration * t) 1 = t) ∧
          (∀ pre act mean post sts, probs = pre ++ (act, mean) :: post → x.previousActivity = some act → (∀ p ∈ post, p.1 ≠ x.activity ∧ p.1 ≠ act) → starts.lookup act = some sts → meanOf sts ≠ 0 → nResidents ≠ some 0 →
            ∃ p, out[a]? = some (some p) ∧ p * (365.25 * meanOf sts * nResidents.getD 2.3) = t) ∧
          ((∀ p ∈ probs, p.1 ≠ x.activity ∧ x.previousActivity ≠ some p.1) → out[a]? = some (some 0))) ∧
        (∀ T, x.previousType = some T → (∃ y ∈ apps, y.type = T) → (((List.zip apps targets).filter fun r => decide (r.1.type = T)).map (·.2)).sum ≠ 0 →
          ∃ p, out[a]? = some (some p) ∧ p * (((List.zip apps targets).filter fun r => decide (r.1.type = T)).map (·.2)).sum = t) := by
  obtain ⟨targets, ht, htl, hget⟩ := switchOnProbs_get step nResidents dict probs starts apps out h
  refine ⟨targets, ht, htl, fun a x t hx hta => ⟨fun hno => ?_, fun T hT hex hsum => ?_⟩⟩
  · have hval : out[a]? = some (roundsOf (stepsPerYear step) (nResidents.getD (23 / 10)) starts x t probs (some 0)) := by
      rw [hget a x t hx hta]
      cases hp : x.previousType with
      | none => rfl
      | some T =>
        dsimp only
        rw [if_neg]
        intro hm
        obtain ⟨y, hy, e⟩ := List.mem_map.mp hm
        exact hno T hp y hy e
    refine ⟨fun pre mean post e hpost hprev => ?_, fun pre act mean post sts e hprev hpost hsts hm hr => ?_, fun hnone => ?_⟩
    · refine ⟨t / max (365.25 * 24 * 60 * 60 / step * mean - x.meanDuration * t) 1, ?_, ?_⟩
      · rw [hval, e, roundsOf_append]
        rw [roundsOf, rounds_untouched _ _ _ _ _ _ _ fun p hp => ⟨hpost p hp, hprev p (by rw [e]; simp [hp])⟩]
        unfold switchOnRound
        rw [if_neg (hprev (x.activity, mean) (by rw [e]; simp)), if_pos rfl]
        unfold npDiv
        rw [if_neg (by have := le_max_right (stepsPerYear step * mean - x.meanDuration * t) 1; intro hc; rw [hc] at this; exact absurd this (by norm_num))]
        unfold stepsPerYear
        norm_num
      · have := le_max_right (365.25 * 24 * 60 * 60 / step * mean - x.meanDuration * t) 1
        exact div_mul_cancel₀ t (fun hc => by rw [hc] at this; exact absurd this (by norm_num))
    · have hres : nResidents.getD 2.3 ≠ 0 := by
        cases nResidents with
        | none => norm_num
        | some r => simpa using hr
      have hne : (365.25 : Rat) * meanOf sts * nResidents.getD 2.3 ≠ 0 := mul_ne_zero (mul_ne_zero (by norm_num) hm) hres
      refine ⟨t / (365.25 * meanOf sts * nResidents.getD 2.3), ?_, div_mul_cancel₀ t hne⟩
      rw [hval, e, roundsOf_append]
      rw [roundsOf, rounds_untouched _ _ _ _ _ _ _ fun p hp => ⟨(hpost p hp).1, fun hc => (hpost p hp).2 (by rw [hprev] at hc; exact (Option.some.inj hc).symm)⟩]
      unfold switchOnRound
      rw [if_pos hprev, ← lookup_eq, hsts]
      unfold npDiv
      have e1 : (36525 / 100 : Rat) * meanFrom 0 ((some sts).getD []) * nResidents.getD (23 / 10) = 365.25 * meanOf sts * nResidents.getD 2.3 := by
        rw [meanFrom_zero]
        norm_num
      rw [e1, if_neg hne]
    · rw [hval, rounds_untouched _ _ _ _ _ _ _ hnone]
  · refine ⟨_, ?_, div_mul_cancel₀ t hsum⟩
    rw [hget a x t hx hta, hT]
    dsimp only
    rw [if_pos (List.mem_map.mpr hex)]
    unfold npDiv
    rw [if_neg hsum]

/-- The demonstration appliances: the washer follows the activity and the dryer the washer, which are calibrated on steps and on uses. -/
example : switchOnProbs 600 none [] [("laundry".toList, 1 / 10)] [("laundry".toList, [8 / 10, 2 / 10])] demoAppliances = .ok [some 0, some (2000 / 40596), some (1 / 4)] := by decide +kernel

/-- An iron used after the laundry, which is itself an activity. -/
def demoIron : AppInfo :=
  { name := "iron".toList, type := "iron".toList, activity := "ironing".toList, equippedProb := 1, probabilistic := true, meanDuration := 3, switchOnProb := 0, targetSwitchons := 100,
    previousActivity := some "laundry".toList, previousType := none }

/-- The full claim for appliances started after an activity: the order of the activities in the data has no effect. -/
def C86_full : Prop :=
  ∀ (step : Rat) (nResidents : Option Rat) (dict : List (Str × Rat)) (probs probs' : List (Str × Rat)) (starts : List (Str × List Rat)) (apps : List AppInfo), probs.Perm probs' →
    (probs.map (·.1)).Nodup → switchOnProbs step nResidents dict probs starts apps = switchOnProbs step nResidents dict probs' starts apps

/-- The iron is started after the laundry, with a probability that is calibrated on the ends of the laundry only when the data list the ironing before the laundry. -/
theorem C86_counterexample : ¬ C86_full := by
  intro h
  have := h 600 none [] [("laundry".toList, 1 / 100), ("ironing".toList, 1 / 200)] [("ironing".toList, 1 / 200), ("laundry".toList, 1 / 100)]
    [("laundry".toList, [8 / 10, 2 / 10]), ("ironing".toList, [9 / 10, 1 / 10])] [demoIron] (List.Perm.swap _ _ _) (by decide +kernel)
  revert this
  decide +kernel

/-! ## C87 -/

theorem negate_filter (c : Str → Bool) (apps : List AppInfo) :
    negateFlags ((negateFlags apps).filter fun a => c a.activity && (!true || !a.probabilistic)) = apps.filter fun x => c x.activity && x.probabilistic := by
  unfold negateFlags
  induction apps with
  | nil => rfl
  | cons x xs ih =>
    obtain ⟨n, t, ac, e, pr, m, sw, ta, pa, pt⟩ := x
    rw [List.map_cons, List.filter_cons, List.filter_cons]
    cases hc : c ac <;> cases pr <;> simp [ih] <;> simpa using ih

/-- Given the same dictionary, each appliance that is always on or has a simulated activity is kept by exactly one of the two simulators: by the probabilistic one if it is flagged as such and by the other one
if not; the other appliances are kept by none. -/
theorem C87_partition (activities : List Str) (apps : List AppInfo) :
    removeIncompatible true activities apps = apps.filter (fun x => decide ((x.activity ∈ activities ∨ x.activity = "level".toList ∨ x.activity = "constant".toList) ∧ x.probabilistic = false)) ∧
    (removeIncompatibleProb true activities apps).1 = apps.filter (fun x => decide ((x.activity ∈ activities ∨ x.activity = "level".toList ∨ x.activity = "constant".toList) ∧ x.probabilistic = true)) := by
  have hin : ∀ x : Str, x ∈ activities ++ alwaysOn ↔ (x ∈ activities ∨ x = "level".toList ∨ x = "constant".toList) := by
    intro x
    rw [List.mem_append]
    simp only [alwaysOn, List.mem_cons, List.not_mem_nil, or_false]
  constructor
  · unfold removeIncompatible
    refine List.filter_congr fun x _ => ?_
    rw [Bool.decide_and, decide_eq_decide.mpr (hin x.activity)]
    generalize decide (x.activity ∈ activities ∨ x.activity = "level".toList ∨ x.activity = "constant".toList) = b
    cases b <;> cases x.probabilistic <;> rfl
  · unfold removeIncompatibleProb removeIncompatible
    refine (negate_filter (fun x => decide (x ∈ activities ++ alwaysOn)) apps).trans (List.filter_congr fun x _ => ?_)
    rw [Bool.decide_and, decide_eq_decide.mpr (hin x.activity)]
    generalize decide (x.activity ∈ activities ∨ x.activity = "level".toList ∨ x.activity = "constant".toList) = b
    cases b <;> cases x.probabilistic <;> rfl

example : ((removeIncompatible true ["laundry".toList] demoAppliances).map (·.name), ((removeIncompatibleProb true ["laundry".toList] demoAppliances).1).map (·.name)) =
    (["fridge_1".toList], ["washer".toList, "dryer".toList]) := by decide +kernel

/-- Without the flags both simulators keep every appliance that is always on or has a simulated activity. -/
theorem C87_without_flags (activities : List Str) (apps : List AppInfo) (x : AppInfo) (hx : x ∈ apps) (hc : x.AlwaysOn ∨ x.activity ∈ activities) :
    x ∈ removeIncompatible false activities apps ∧ { x with probabilistic := true } ∈ (removeIncompatibleProb false activities apps).1 := by
  have hin : x.activity ∈ activities ++ alwaysOn := by
    rw [List.mem_append]
    rcases hc with h | h
    · exact Or.inr ((mem_alwaysOn x).mpr h)
    · exact Or.inl h
  constructor
  · unfold removeIncompatible
    rw [List.mem_filter]
    exact ⟨hx, by simp only [hin]; rfl⟩
  · unfold removeIncompatibleProb removeIncompatible negateFlags
    simp only [List.mem_map, List.mem_filter]
    refine ⟨{ x with probabilistic := false }, ⟨⟨{ x with probabilistic := true }, ?_, rfl⟩, by simp only [hin]; rfl⟩, rfl⟩
    simp only [Bool.false_eq_true, if_false, List.mem_map]
    exact ⟨x, hx, rfl⟩

/-- The full claim for simulators that are built one after the other with the dictionary object that a loader keeps: the second one keeps the appliances that the first one did not. -/
def C87_full : Prop :=
  ∀ (activities : List Str) (apps : List AppInfo) (x : AppInfo), x ∈ apps → x ∈ (removeIncompatibleProb true activities apps).1 →
    x.name ∉ (removeIncompatible true activities (removeIncompatibleProb true activities apps).2).map (·.name)

/-- The probabilistic simulator changes the dictionary it was given: with the same dictionary object the other simulator then keeps the same appliances again. -/
theorem C87_counterexample : ¬ C87_full := by
  intro h
  have := h ["laundry".toList] demoAppliances demoAppliances[1] (by decide +kernel) (by decide +kernel)
  revert this
  decide +kernel

/-! ## C88: the probability of a switch-on -/

/-- The probability with which an appliance of a household is switched on at a row of the profiles: 0 when it is not available, else its own probability times the entry of the profile of the household's subgroup and
of the appliance's activity, for the time and the number of active occupants. -/
theorem C88_probability (apps : List AppInfo) (profiles : Subgroup → List (Str × List (List Rat))) (subs : List Subgroup) (hhTypes : List Nat) (pdf : List (List (List (List Rat))))
    (hpdf : activityPdf apps profiles subs = .ok pdf) (h k t occ : Nat) (s : Subgroup) (x : AppInfo) (profile : List (List Rat)) (row : List Rat) (p : Rat) (available : Bool)
    (hk : hhTypes[h]? = some k) (hs : subs[k]? = some s) (hx : x ∈ apps) (hprof : (profiles s).lookup x.activity = some profile) (hrow : profile[t]? = some row) (hp : row[occ]? = some p) :
    switchonProb apps pdf hhTypes t occ available h x = .ok (if available then x.switchOnProb * p else 0) := by
  obtain ⟨-, hget⟩ := mapM_ok_get _ _ _ hpdf
  obtain ⟨byAct, hb, hin⟩ := hget k s hs
  obtain ⟨-, hget2⟩ := mapM_ok_get _ _ _ hin
  have hmem : x.activity ∈ (apps.map (·.activity)).dedup := by
    rw [List.mem_dedup]
    exact List.mem_map.mpr ⟨x, hx, rfl⟩
  obtain ⟨pr, hpr, hval⟩ := hget2 ((apps.map (·.activity)).dedup.idxOf x.activity) x.activity (by
    rw [List.getElem?_eq_getElem (List.idxOf_lt_length_iff.mpr hmem), List.getElem_idxOf])
  have hpp : pr = profile := by
    rw [← lookup_eq, hprof] at hval
    exact (Except.ok.inj hval).symm
  subst hpp
  have hpy : ∀ {α : Type} (l : List α) (i : Nat) v, l[i]? = some v → pyGet l i = .ok v := by
    intro α l i v e
    unfold pyGet
    rw [e]
  have hbind : ∀ {α β : Type} (v : α) (f : α → Except PyErr β), (Except.ok v >>= f) = f v := fun v f => rfl
  unfold switchonProb
  simp only [hpy _ _ _ hk, hpy _ _ _ hb, hpy _ _ _ hpr, hpy _ _ _ hrow, hpy _ _ _ hp, hbind]
  cases available <;> simp

/-- The profiles are found unless a subgroup lacks the profile of an appliance's activity. -/
theorem C88_profiles (apps : List AppInfo) (profiles : Subgroup → List (Str × List (List Rat))) (subs : List Subgroup) :
    (∀ s ∈ subs, ∀ x ∈ apps, ((profiles s).lookup x.activity).isSome) → ∃ pdf, activityPdf apps profiles subs = .ok pdf := by
  intro h
  refine mapM_all_ok _ _ fun s hs => mapM_all_ok _ _ fun act hact => ?_
  obtain ⟨x, hx, e⟩ := List.mem_map.mp (List.mem_dedup.mp hact)
  have := h s hs x hx
  rw [e, lookup_eq] at this
  obtain ⟨v, hv⟩ := Option.isSome_iff_exists.mp this
  exact ⟨v, by rw [hv]⟩

example : ∃ pdf, activityPdf demoAppliances (fun _ => [("laundry".toList, [[0, 1 / 4], [0, 1 / 2]]), ("level".toList, [[1, 1], [1, 1]])]) [[]] = .ok pdf ∧
    switchonProb demoAppliances pdf [0, 0] 1 1 true 1 demoAppliances[1] = .ok (1 / 4) := ⟨_, rfl, by decide +kernel⟩

end Demod
