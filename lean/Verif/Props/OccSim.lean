import Verif.Lemmas.OccSimGet

/-! # Property C109: the simulation of the appliances with the active occupancy -/

namespace Demod

/-- **C109.** The simulator is created, with the households in their subgroups, the appliances drawn for them and the load profiles drawn for these; its clock shows the start. Until then its appliances have followed, from an
initial delay on, the active occupants assumed for the initialisation (given, or one in each household). -/
theorem C109_create (apps : List AppData) (profiles : Subgroup → List (Str × List (List Rat))) (switchedOn full : ProfilesDict (List Rat)) (refresh dataStep : Int) (groups : List Subgroup) (ns : List Nat)
    (stepSize : Option Int) (start : Int) (args : OccSim.OccArgs) (e : Nat → OccDraws) (m : Nat) (hs : OccSetup apps profiles switchedOn full refresh dataStep groups ns stepSize start args m) :
    ∃ s0, OccSim.create apps profiles switchedOn full refresh dataStep groups ns stepSize start args e = .ok s0 ∧ s0.time = start ∧ s0.apps = apps ∧ s0.hhTypes.length = ns.sum ∧
      (∀ (h k : Nat), s0.hhTypes[h]? = some k ↔ InSubgroup ns h k) ∧ sampleAvailable (apps.map (·.info)) groups s0.hhTypes args.uOwned args.equip = .ok s0.owned ∧
      chooseProfiles (apps.map (·.info)) (fun h a => (s0.owned.getD h []).getD a false) switchedOn full args.draw args.draw' args.real = .ok s0.choice ∧
      ∃ (n : Nat) (rank : Nat → Nat × Nat → Nat), n < 1440 ∧ (start - n * 60000000 - refresh) % 86400000000 = 0 ∧ (∀ i, Function.Injective (rank i)) ∧ ∀ h a x, h < ns.sum → apps[a]? = some x →
        s0.Follows profiles refresh groups (start - n * 60000000) ((List.range n).map fun k => (args.initial.getD (List.replicate ns.sum 1), e k)) rank h a x
          ⟨0, if x.delay > 0 then ((args.delay h a % x.delay : Nat) : Int) else 0⟩ (s0.st h a) := by
  obtain ⟨s0, t, e0, a1, rfl, a3, a4, a5, a6, -, hy, rank, hrank, hf⟩ := OccSim.create_spec apps profiles switchedOn full refresh dataStep groups ns stepSize start args e m hs.refresh0 hs.refresh1 hs.refresh10 hs.fullMinute
    hs.inhabited hs.enough hs.someApp hs.stepOk hs.complete hs.some' hs.initialOk hs.usable hs.known hs.notEmpty
  obtain ⟨i1, i2, i3⟩ := init_time refresh start hs.refresh0 hs.refresh1
  have ht := hy.time
  rw [pdf_time, i3] at ht
  have h1 := hs.fullMinute
  have h2 := hs.refresh10
  have e1 : (PdfClock.init refresh start).time = start - (PdfClock.initSteps refresh start : Int) * 60000000 := by omega
  rw [e1] at i1 i2 hf
  have h3 := hs.refresh0
  have h4 := hs.refresh1
  refine ⟨s0, e0, ht, a1, a3, a4, a5, a6, PdfClock.initSteps refresh start, rank, ?_, ?_, hrank, hf⟩
  · clear hf hrank rank hy a4 a5 a6 e0 i1 i2 i3 e1
    unfold PdfClock.initSteps dayNumber DAY
    simp only
    rw [Int.tdiv_eq_ediv_of_nonneg (by split_ifs <;> omega)]
    split_ifs <;> omega
  · unfold sinceRefresh at i1 i2
    omega

/-- **C109.** With a number of active occupants for each household in each step, the simulation never fails, its clock advances by a minute a step, and every appliance of every household behaves as the appliance alone: it is
governed by the active occupants of its household, its own draws, and the probability of its activity at the time of the step on that day for the subgroup of its household. No two fixtures share a volume. -/
theorem C109_run (apps : List AppData) (profiles : Subgroup → List (Str × List (List Rat))) (switchedOn full : ProfilesDict (List Rat)) (refresh dataStep : Int) (groups : List Subgroup) (ns : List Nat)
    (stepSize : Option Int) (start : Int) (args : OccSim.OccArgs) (e : Nat → OccDraws) (m : Nat) (hs : OccSetup apps profiles switchedOn full refresh dataStep groups ns stepSize start args m) (s0 : OccSim)
    (h0 : OccSim.create apps profiles switchedOn full refresh dataStep groups ns stepSize start args e = .ok s0) (inputs : List (List Nat × OccDraws)) (hi : OccSim.OkInputs ns.sum m inputs) :
    ∃ s, OccSim.run profiles refresh s0 inputs = .ok s ∧ s.time = start + inputs.length * 60000000 ∧ s.apps = s0.apps ∧ s.hhTypes = s0.hhTypes ∧ s.owned = s0.owned ∧ s.choice = s0.choice ∧
      ∃ rank : Nat → Nat × Nat → Nat, (∀ i, Function.Injective (rank i)) ∧ ∀ h a x, h < ns.sum → apps[a]? = some x →
        s0.Follows profiles refresh groups start inputs rank h a x (s0.st h a) (s.st h a) := by
  obtain ⟨s0', t, e0, a1, a2, a3, a4, -, -, hsh, hy, -⟩ := OccSim.create_spec apps profiles switchedOn full refresh dataStep groups ns stepSize start args e m hs.refresh0 hs.refresh1 hs.refresh10 hs.fullMinute
    hs.inhabited hs.enough hs.someApp hs.stepOk hs.complete hs.some' hs.initialOk hs.usable hs.known hs.notEmpty
  rw [h0] at e0
  obtain rfl := Except.ok.inj e0
  have hg : groups ≠ [] := by
    intro c
    have h1 := hs.enough
    rw [c] at h1
    have : ns = [] := by simpa using h1
    have h2 := hs.inhabited
    rw [this] at h2
    simp at h2
  have hkl : ∀ (h k : Nat), s0.hhTypes[h]? = some k → k < groups.length := by
    intro h k hk
    rw [a2] at hk
    obtain ⟨q1, q2⟩ := (a4 h k).1 hk
    by_contra hcon
    have := hs.enough
    rw [List.take_of_length_le (by omega)] at q1 q2
    omega
  obtain ⟨s, er, -, hd, hy', rank, hrank, hf⟩ := OccSim.run_spec profiles refresh start hs.refresh0 hs.refresh1 hs.refresh10 hs.fullMinute groups m inputs (PdfClock.initSteps refresh start) s0 hsh hy
    (by rw [a1]; exact hs.complete) (by rw [a1]; exact hs.someApp) hg hkl (by rw [a2, a3]; exact hi)
  obtain ⟨-, -, i3⟩ := init_time refresh start hs.refresh0 hs.refresh1
  have ht := hy.time
  rw [pdf_time, i3] at ht
  have ht' := hy'.time
  rw [pdf_time] at ht'
  rw [ht, a1, a2, a3] at hf
  exact ⟨s, er, by rw [ht']; push_cast; linarith, hd.apps, hd.hhTypes, hd.owned, hd.choice, rank, hrank, hf⟩

/-- **C109.** Another step size than that of the data, no household, no appliance, and occupancies for another number of households are refused. -/
theorem C109_refuses (apps : List AppData) (profiles : Subgroup → List (Str × List (List Rat))) (switchedOn full : ProfilesDict (List Rat)) (refresh dataStep : Int) (groups : List Subgroup) (ns : List Nat)
    (stepSize : Option Int) (start : Int) (args : OccSim.OccArgs) (e : Nat → OccDraws) (s0 : OccSim) :
    (OccSim.create apps profiles switchedOn full refresh dataStep groups ns stepSize start args e = .ok s0 → stepSize.getD dataStep = dataStep ∧ 0 < ns.sum ∧ apps ≠ []) ∧
    (∀ occ d s, s0.step profiles refresh occ d = .ok s → occ.length = s0.hhTypes.length) := by
  constructor
  · intro h
    unfold OccSim.create at h
    simp only [bind, Except.bind] at h
    cases hp : parseHouseholds ns.sum (some groups) (some ns) with
    | error err => simp only [hp] at h; cases h
    | ok parsed =>
      simp only [hp] at h
      by_cases h1 : stepSize.getD dataStep = dataStep
      · rw [if_neg (by simpa using h1)] at h
        by_cases h2 : ns.sum = 0
        · rw [if_pos h2] at h
          cases h
        · rw [if_neg h2] at h
          refine ⟨h1, by omega, ?_⟩
          rintro rfl
          cases h3 : sampleAvailable (([] : List AppData).map (·.info)) parsed.1 parsed.2 args.uOwned args.equip with
          | error err => simp only [h3] at h; cases h
          | ok owned =>
            simp only [h3] at h
            cases h4 : chooseProfiles (([] : List AppData).map (·.info)) (fun h a => (owned.getD h []).getD a false) switchedOn full args.draw args.draw' args.real with
            | error err => simp only [h4] at h; cases h
            | ok choice =>
              simp only [h4] at h
              split at h
              · cases h
              · next s hs =>
                unfold OccSim.loadDay at hs
                simp only [bind, Except.bind] at hs
                split at hs
                · cases hs
                · split at hs
                  · cases hs
                  · rw [if_pos trivial] at hs
                    cases hs
      · rw [if_pos (by simpa using h1)] at h
        cases h
  · intro occ d s h
    unfold OccSim.step at h
    have key : ∀ s1 : OccSim, s1.hhTypes = s0.hhTypes → occ.length ≠ s0.hhTypes.length → ¬ (occ.length = s1.hhTypes.length) := fun s1 h1 h2 => by rw [h1]; exact h2
    by_contra hc
    by_cases hf : firesBeforeRefresh refresh s0.time 60000000 = true
    · simp only [if_pos hf] at h
      cases hl : s0.loadDay profiles (s0.time + 60000000) with
      | error err => simp only [hl, bind, Except.bind] at h; cases h
      | ok s1 =>
        have h1 : s1.hhTypes = s0.hhTypes := by
          unfold OccSim.loadDay at hl
          simp only [bind, Except.bind] at hl
          split at hl
          · cases hl
          · split at hl
            · cases hl
            · split at hl
              · cases hl
              · rw [← Except.ok.inj hl]
        simp only [hl, bind, Except.bind] at h
        rw [if_pos (key s1 h1 hc)] at h
        cases h
    · simp only [if_neg hf, bind, Except.bind] at h
      rw [if_pos hc] at h
      cases h

/-! ## What an appliance depends on -/

theorem occRun_volume (A : Appl) (hw : A.usesWater = false) : ∀ (is js : List Appl.OccInput) (b : ApplState), is.length = js.length →
    (∀ (k : Nat) i j, is[k]? = some i → js[k]? = some j → i.active = j.active ∧ i.prob = j.prob ∧ i.u = j.u) → A.occRun b is = A.occRun b js := by
  intro is
  induction is with
  | nil => intro js b hl _; cases js with
    | nil => rfl
    | cons j js => simp at hl
  | cons i is ih =>
    intro js b hl h
    cases js with
    | nil => simp at hl
    | cons j js =>
      have h0 := h 0 i j rfl rfl
      have e : A.occStep b i = A.occStep b j := by
        unfold Appl.occStep Appl.occSwitchOn Appl.sampleDuration
        simp only [hw, h0.1, h0.2.1, h0.2.2, Bool.false_eq_true, if_false]
      change A.occRun (A.occStep b i) is = A.occRun (A.occStep b j) js
      rw [e]
      exact ih js _ (by simpa using hl) fun k i' j' hi' hj' => h (k + 1) i' j' (by simpa using hi') (by simpa using hj')

/-- The profiles depend on what a subgroup says only. -/
def OfContent (profiles : Subgroup → List (Str × List (List Rat))) : Prop := ∀ g g' : Subgroup, (∀ k, g.at k = g'.at k) → profiles g = profiles g'

theorem follows_alone (profiles : Subgroup → List (Str × List (List Rat))) (hp : OfContent profiles) (refresh t0 : Int) (G G' : List Subgroup) (s s' : OccSim) (is js : List (List Nat × OccDraws))
    (rank rank' : Nat → Nat × Nat → Nat) (h a h' a' : Nat) (x : AppData) (hw : x.usesWater = false) (b c c' : ApplState) (hl : is.length = js.length) (hA : s.appl h a x = s'.appl h' a' x)
    (hg : ∀ k k' g g', s.hhTypes[h]? = some k → s'.hhTypes[h']? = some k' → G[k]? = some g → G'[k']? = some g' → ∀ key, g.at key = g'.at key)
    (hi : ∀ (k : Nat) i j, is[k]? = some i → js[k]? = some j → i.1[h]? = j.1[h']? ∧ i.2.u h a = j.2.u h' a')
    (h1 : s.Follows profiles refresh G t0 is rank h a x b c) (h2 : s'.Follows profiles refresh G' t0 js rank' h' a' x b c') : c = c' := by
  obtain ⟨xs, l1, rfl, f1⟩ := h1
  obtain ⟨ys, l2, rfl, f2⟩ := h2
  rw [← hA]
  refine occRun_volume _ hw _ _ _ (by omega) ?_
  intro k i j hik hjk
  have hk1 : k < is.length := by rw [← l1]; exact (List.getElem?_eq_some_iff.1 hik).1
  have hk2 : k < js.length := by omega
  have e1 := List.getElem?_eq_getElem hk1
  have e2 := List.getElem?_eq_getElem hk2
  obtain ⟨q1, q2⟩ := hi k _ _ e1 e2
  obtain ⟨⟨oi, di⟩, ei⟩ : ∃ z, z = is[k] := ⟨_, rfl⟩
  obtain ⟨⟨oj, dj⟩, ej⟩ : ∃ z, z = js[k] := ⟨_, rfl⟩
  rw [← ei] at e1 q1 q2
  rw [← ej] at e2 q1 q2
  simp only at q1 q2
  obtain ⟨n, p, k1, g, g1, a1, a2, a3, a4, a5, a6⟩ := f1 k _ _ e1
  obtain ⟨n', p', k1', g', g1', b1, b2, b3, b4, b5, b6⟩ := f2 k _ _ e2
  have hgg := hg k1 k1' g g' a2 b2 a3 b3
  have hcont : ∀ key, g1.at key = g1'.at key := by
    intro key
    by_cases c1 : key = kWeekday
    · rw [c1, a4.weekday, b4.weekday]
    · by_cases c2 : key = kQuarter
      · rw [c2, a4.quarter, b4.quarter]
      · rw [a4.rest key c1 c2, b4.rest key c1 c2, hgg key]
  have hpp := hp g1 g1' hcont
  rw [a1, b1] at q1
  obtain rfl := Option.some.inj q1
  obtain ⟨P, r, d1, d2, d3⟩ := a5
  obtain ⟨P', r', d1', d2', d3'⟩ := b5
  rw [hpp, d1'] at d1
  obtain rfl := Option.some.inj d1
  rw [d2'] at d2
  obtain rfl := Option.some.inj d2
  rw [d3'] at d3
  obtain rfl := Option.some.inj d3
  rw [hik] at a6
  rw [hjk] at b6
  obtain rfl := Option.some.inj a6
  obtain rfl := Option.some.inj b6
  exact ⟨rfl, rfl, q2⟩

/-- **C109.** The other households and the other appliances have no effect on an appliance that draws no hot water. In two simulations from the same start with the same profiles, which may differ in everything else, an
appliance that both households own, or that neither does, with the same load profile and the same initial delay, is in the same state after any steps in which the two households, with the same features, have the same
numbers of active occupants and the appliance has the same uniform draws. -/
theorem C109_alone (profiles : Subgroup → List (Str × List (List Rat))) (hp : OfContent profiles) (refresh dataStep start : Int) (switchedOn full : ProfilesDict (List Rat))
    (apps apps' : List AppData) (groups groups' : List Subgroup) (ns ns' : List Nat) (stepSize stepSize' : Option Int) (args args' : OccSim.OccArgs) (e e' : Nat → OccDraws) (m m' : Nat)
    (hs : OccSetup apps profiles switchedOn full refresh dataStep groups ns stepSize start args m) (hs' : OccSetup apps' profiles switchedOn full refresh dataStep groups' ns' stepSize' start args' m') (s0 s0' : OccSim)
    (h0 : OccSim.create apps profiles switchedOn full refresh dataStep groups ns stepSize start args e = .ok s0)
    (h0' : OccSim.create apps' profiles switchedOn full refresh dataStep groups' ns' stepSize' start args' e' = .ok s0')
    (inputs inputs' : List (List Nat × OccDraws)) (hi : OccSim.OkInputs ns.sum m inputs) (hi' : OccSim.OkInputs ns'.sum m' inputs') (hl : inputs.length = inputs'.length)
    (h a h' a' : Nat) (x : AppData) (hh : h < ns.sum) (hh' : h' < ns'.sum) (ha : apps[a]? = some x) (ha' : apps'[a']? = some x) (hw : x.usesWater = false)
    (hA : s0.appl h a x = s0'.appl h' a' x) (hdelay : args.delay h a = args'.delay h' a')
    (hg : ∀ k k' g g', InSubgroup ns h k → InSubgroup ns' h' k' → groups[k]? = some g → groups'[k']? = some g' → ∀ key, g.at key = g'.at key)
    (hinit : (args.initial.getD (List.replicate ns.sum 1))[h]? = (args'.initial.getD (List.replicate ns'.sum 1))[h']?) (he : ∀ k, (e k).u h a = (e' k).u h' a')
    (hin : ∀ (k : Nat) i j, inputs[k]? = some i → inputs'[k]? = some j → i.1[h]? = j.1[h']? ∧ i.2.u h a = j.2.u h' a') :
    ∃ s s', OccSim.run profiles refresh s0 inputs = .ok s ∧ OccSim.run profiles refresh s0' inputs' = .ok s' ∧ s0.st h a = s0'.st h' a' ∧ s.st h a = s'.st h' a' := by
  obtain ⟨t, e1, -, -, -, a4, -, -, n, rank, n1, n2, -, f⟩ := C109_create apps profiles switchedOn full refresh dataStep groups ns stepSize start args e m hs
  rw [h0] at e1
  obtain rfl := Except.ok.inj e1
  obtain ⟨t', e1', -, -, -, a4', -, -, n', rank', n1', n2', -, f'⟩ := C109_create apps' profiles switchedOn full refresh dataStep groups' ns' stepSize' start args' e' m' hs'
  rw [h0'] at e1'
  obtain rfl := Except.ok.inj e1'
  have hn : n = n' := by omega
  subst hn
  obtain ⟨s, r1, -, -, -, -, -, k1, -, f1⟩ := C109_run apps profiles switchedOn full refresh dataStep groups ns stepSize start args e m hs s0 h0 inputs hi
  obtain ⟨s', r1', -, -, -, -, -, k1', -, f1'⟩ := C109_run apps' profiles switchedOn full refresh dataStep groups' ns' stepSize' start args' e' m' hs' s0' h0' inputs' hi'
  have hgg : ∀ k k' g g', s0.hhTypes[h]? = some k → s0'.hhTypes[h']? = some k' → groups[k]? = some g → groups'[k']? = some g' → ∀ key, g.at key = g'.at key :=
    fun k k' g g' b1 b2 => hg k k' g g' ((a4 h k).1 b1) ((a4' h' k').1 b2)
  have q0 : s0.st h a = s0'.st h' a' := by
    have g1 := f h a x hh ha
    have g2 := f' h' a' x hh' ha'
    rw [hdelay] at g1
    refine follows_alone profiles hp refresh _ groups groups' s0 s0' _ _ rank rank' h a h' a' x hw _ _ _ (by simp) hA hgg ?_ g1 g2
    intro k i j hik hjk
    rw [List.getElem?_map] at hik hjk
    obtain ⟨y, hy, rfl⟩ := Option.map_eq_some_iff.1 hik
    obtain ⟨y', hy', rfl⟩ := Option.map_eq_some_iff.1 hjk
    rw [hy] at hy'
    obtain rfl := Option.some.inj hy'
    exact ⟨hinit, he y⟩
  refine ⟨s, s', r1, r1', q0, ?_⟩
  have g1 := f1 h a x hh ha
  have g2 := f1' h' a' x hh' ha'
  rw [q0] at g1
  exact follows_alone profiles hp refresh _ groups groups' s0 s0' _ _ k1 k1' h a h' a' x hw _ _ _ hl hA hgg hin g1 g2

/-! ## Power and water -/

theorem choice_ok (apps : List AppData) (switchedOn full : ProfilesDict (List Rat)) (args : OccSim.OccArgs) (h : OccProfilesOk apps switchedOn full args) (s : OccSim)
    (hc : chooseProfiles (apps.map (·.info)) (fun h a => (s.owned.getD h []).getD a false) switchedOn full args.draw args.draw' args.real = .ok s.choice) (hh a : Nat) (x : AppData) (hx : apps[a]? = some x)
    (ho : (s.appl hh a x).owned = true) (hv : (s.appl hh a x).varLoad = true) :
    (s.appl hh a x).usesWater = false ∧ 0 < (s.appl hh a x).loadDuration ∧ (s.appl hh a x).loadDuration ≤ (s.appl hh a x).row.length := by
  change s.choice.varLoad a = true at hv
  change (s.owned.getD hh []).getD a false = true at ho
  rcases h with h | ⟨h, hsep, hfull, hsw⟩
  · rw [h] at hc
    unfold chooseProfiles at hc
    rw [← Except.ok.inj hc] at hv
    cases hv
  · rw [h] at hc
    have hx' : (apps.map (·.info))[a]? = some x.info := by rw [List.getElem?_map, hx]; rfl
    obtain ⟨c1, c2, c3, -⟩ := C85_uniform_partial _ _ _ _ _ _ _ hsep hc hh a x.info hx'
    have key : ∀ p : List Rat, p ≠ [] → (s.choice.duration hh a = p.length ∧ ∃ rows n, s.choice.loads x.info.type = some rows ∧ rows[s.choice.id hh a]? = some (p ++ List.replicate n 0)) →
        0 < (s.appl hh a x).loadDuration ∧ (s.appl hh a x).loadDuration ≤ (s.appl hh a x).row.length := by
      rintro p hp ⟨d1, rows, n, d2, d3⟩
      change 0 < s.choice.duration hh a ∧ s.choice.duration hh a ≤ (((s.choice.loads x.info.type).getD []).getD (s.choice.id hh a) []).length
      rw [d1, d2, Option.getD_some, List.getD_eq_getElem?_getD, d3, Option.getD_some]
      exact ⟨List.length_pos_iff.2 hp, by simp⟩
    by_cases hon : x.info.AlwaysOn
    · cases hf : full.get x.info.type with
      | none =>
        obtain ⟨c, -⟩ := c3 (fun _ => hf) (fun c => absurd hon c)
        rw [c] at hv
        cases hv
      | some named =>
        obtain ⟨w, hd⟩ := hfull a x named hx hon hf
        obtain ⟨name, p, hd, hp⟩ := hd hh
        exact ⟨w, key p hp ((c1 named p name hon hf hd).2 ho)⟩
    · cases hf : switchedOn.get x.info.type with
      | none =>
        obtain ⟨c, -⟩ := c3 (fun c => absurd c hon) (fun _ => hf)
        rw [c] at hv
        cases hv
      | some named =>
        obtain ⟨w, hd⟩ := hsw a x named hx hon hf
        obtain ⟨name, p, hd, hp⟩ := hd hh
        exact ⟨w, key p hp ((c2 named p name hon hf hd).2 ho)⟩

theorem occRun_append (A : Appl) (b : ApplState) (is js : List Appl.OccInput) : A.occRun b (is ++ js) = A.occRun (A.occRun b is) js := by
  induction is generalizing b with
  | nil => rfl
  | cons i is ih => exact ih _

theorem left_unowned (A : Appl) (ho : A.owned = false) : ∀ (is : List Appl.OccInput) (b : ApplState), b.left ≤ 0 → (∀ i ∈ is, 0 ≤ i.u) → (A.occRun b is).left ≤ 0 := by
  intro is
  induction is with
  | nil => intro b hb _; exact hb
  | cons i is ih =>
    intro b hb hu
    refine ih _ ?_ fun j hj => hu j (List.mem_cons_of_mem _ hj)
    have h0 := hu i List.mem_cons_self
    have hav : A.available b = false := by unfold Appl.available; rw [ho]; rfl
    unfold Appl.occStep
    simp only [hav, Bool.false_eq_true, if_false, zero_mul]
    rw [if_neg (by linarith)]
    unfold Appl.switchOffInactive Appl.decrement
    split_ifs <;> simp_all <;> linarith

/-- The uniform draws are not negative. -/
def DrawsOk (inputs : List (List Nat × OccDraws)) : Prop := ∀ i ∈ inputs, ∀ h a, 0 ≤ i.2.u h a

theorem follows_u (profiles : Subgroup → List (Str × List (List Rat))) (refresh t0 : Int) (G : List Subgroup) (s : OccSim) (is : List (List Nat × OccDraws)) (rank : Nat → Nat × Nat → Nat) (h a : Nat) (x : AppData)
    (b c : ApplState) (hu : DrawsOk is) (hf : s.Follows profiles refresh G t0 is rank h a x b c) : ∃ ins : List Appl.OccInput, c = (s.appl h a x).occRun b ins ∧ ∀ i ∈ ins, 0 ≤ i.u := by
  obtain ⟨ins, l, e, f⟩ := hf
  refine ⟨ins, e, ?_⟩
  intro i hi
  obtain ⟨k, hk⟩ := List.mem_iff_getElem?.1 hi
  have hk1 : k < is.length := by rw [← l]; exact (List.getElem?_eq_some_iff.1 hk).1
  have e1 := List.getElem?_eq_getElem hk1
  have hm := List.getElem_mem hk1
  obtain ⟨⟨oi, di⟩, ei⟩ : ∃ z, z = is[k] := ⟨_, rfl⟩
  rw [← ei] at e1 hm
  obtain ⟨n, p, k1, g, g1, a1, a2, a3, a4, a5, a6⟩ := f k _ _ e1
  rw [hk] at a6
  rw [Option.some.inj a6]
  exact hu _ hm h a

/-- **C109.** After any steps the power demand of a household is the sum of what its appliances must consume, and the getters of the usage and of the hot water say, for each appliance of each household, that it is in use if
it is owned and has time left, and that it draws its flow times the part of the next minute during which it is used, nothing if it is not owned. -/
theorem C109_getters (apps : List AppData) (profiles : Subgroup → List (Str × List (List Rat))) (switchedOn full : ProfilesDict (List Rat)) (refresh dataStep : Int) (groups : List Subgroup) (ns : List Nat)
    (stepSize : Option Int) (start : Int) (args : OccSim.OccArgs) (e : Nat → OccDraws) (m : Nat) (hs : OccSetup apps profiles switchedOn full refresh dataStep groups ns stepSize start args m)
    (hp : OccProfilesOk apps switchedOn full args) (s0 : OccSim) (h0 : OccSim.create apps profiles switchedOn full refresh dataStep groups ns stepSize start args e = .ok s0)
    (he : ∀ k h a, 0 ≤ (e k).u h a) (inputs : List (List Nat × OccDraws)) (hi : OccSim.OkInputs ns.sum m inputs) (hu : DrawsOk inputs) :
    ∃ s P, OccSim.run profiles refresh s0 inputs = .ok s ∧ s.powerDemand = .ok P ∧ P.length = ns.sum ∧ s.usage.length = ns.sum ∧ s.water.length = ns.sum ∧ ∀ h, h < ns.sum →
      (∃ ws : List Rat, P[h]? = some ws.sum ∧ ws.length = apps.length ∧ ∀ (a : Nat) x w, apps[a]? = some x → ws[a]? = some w → consumes (s.appl h a x) (s.st h a) w) ∧
      (∃ us vs, s.usage[h]? = some us ∧ s.water[h]? = some vs ∧ us.length = apps.length ∧ vs.length = apps.length ∧ ∀ (a : Nat) x, apps[a]? = some x →
        us[a]? = some (decide (0 < (s.st h a).left ∧ (s.appl h a x).owned = true)) ∧ vs[a]? = some (x.flow * max 0 (min 1 (s.st h a).left)) ∧ ((s.appl h a x).owned = false → (s.st h a).left ≤ 0)) := by
  obtain ⟨s0', t, e0, a1, a2, a3, a4, a5, a6, hsh, hy, rank, hrank, hf⟩ := OccSim.create_spec apps profiles switchedOn full refresh dataStep groups ns stepSize start args e m hs.refresh0 hs.refresh1 hs.refresh10 hs.fullMinute
    hs.inhabited hs.enough hs.someApp hs.stepOk hs.complete hs.some' hs.initialOk hs.usable hs.known hs.notEmpty
  rw [h0] at e0
  obtain rfl := Except.ok.inj e0
  have hg : groups ≠ [] := by
    intro c
    have h1 := hs.enough
    rw [c] at h1
    have : ns = [] := by simpa using h1
    have h2 := hs.inhabited
    rw [this] at h2
    simp at h2
  have hkl : ∀ (h k : Nat), s0.hhTypes[h]? = some k → k < groups.length := by
    intro h k hk
    rw [a2] at hk
    obtain ⟨q1, q2⟩ := (a4 h k).1 hk
    by_contra hcon
    have := hs.enough
    rw [List.take_of_length_le (by omega)] at q1 q2
    omega
  obtain ⟨s, er, hsh', hd, -, rank', -, hf'⟩ := OccSim.run_spec profiles refresh start hs.refresh0 hs.refresh1 hs.refresh10 hs.fullMinute groups m inputs (PdfClock.initSteps refresh start) s0 hsh hy
    (by rw [a1]; exact hs.complete) (by rw [a1]; exact hs.someApp) hg hkl (by rw [a2, a3]; exact hi)
  have hn : s.hhTypes.length = ns.sum := by rw [hd.hhTypes, a2, a3]
  have ha : s.apps = apps := by rw [hd.apps, a1]
  have hstate : ∀ h a x, h < ns.sum → apps[a]? = some x → ∃ b ins, b.left ≤ 0 ∧ s.st h a = (s.appl h a x).occRun b ins ∧ ∀ i ∈ ins, 0 ≤ i.u := by
    intro h a x hh hx
    obtain ⟨i1, c1, u1⟩ := follows_u _ _ _ _ _ _ _ _ _ _ _ _ (by
      intro i hi h a
      obtain ⟨k, -, rfl⟩ := List.mem_map.1 hi
      exact he k h a) (hf h a x hh hx)
    obtain ⟨i2, c2, u2⟩ := follows_u _ _ _ _ _ _ _ _ _ _ _ _ hu (hf' h a x (by rw [a2, a3]; exact hh) (by rw [a1]; exact hx))
    refine ⟨⟨0, if x.delay > 0 then ((args.delay h a % x.delay : Nat) : Int) else 0⟩, i1 ++ i2, le_refl (0 : Rat), ?_, ?_⟩
    rotate_left
    · intro i hi
      rcases List.mem_append.1 hi with hi | hi
      · exact u1 i hi
      · exact u2 i hi
    · rw [hd.appl_eq, occRun_append, ← c1, c2]
  have hch : chooseProfiles (apps.map (·.info)) (fun h a => (s.owned.getD h []).getD a false) switchedOn full args.draw args.draw' args.real = .ok s.choice := by
    rw [hd.owned, hd.choice]; exact a6
  have hpow : ∀ h a x, h < ns.sum → apps[a]? = some x → ∃ w, (s.appl h a x).power ((s.appl h a x).usage (s.st h a)) (s.st h a) = .ok w ∧ consumes (s.appl h a x) (s.st h a) w := by
    intro h a x hh hx
    obtain ⟨b, ins, hb, hst, hu'⟩ := hstate h a x hh hx
    obtain ⟨r1, r2⟩ := C46_run (s.appl h a x) b hb ins hu'
    rw [hst]
    by_cases ho : (s.appl h a x).owned = true
    · exact power_spec _ _ (r1 fun hv => choice_ok apps switchedOn full args hp s hch h a x hx ho hv)
    · have ho' : (s.appl h a x).owned = false := by simpa using ho
      exact ⟨0, (r2 ho').1, fun _ => rfl, fun c => absurd c ho, fun c => absurd c ho, fun c => absurd c ho⟩
  obtain ⟨W, hW⟩ : ∃ W : Nat → Nat → Rat, ∀ h a x, h < ns.sum → apps[a]? = some x → (s.appl h a x).power ((s.appl h a x).usage (s.st h a)) (s.st h a) = .ok (W h a) ∧ consumes (s.appl h a x) (s.st h a) (W h a) := by
    refine ⟨fun h a => match apps[a]? with
      | some x => match (s.appl h a x).power ((s.appl h a x).usage (s.st h a)) (s.st h a) with
        | .ok w => w
        | .error _ => 0
      | none => 0, ?_⟩
    intro h a x hh hx
    obtain ⟨w, ew, hw⟩ := hpow h a x hh hx
    simp only [hx, ew]
    exact ⟨trivial, hw⟩
  obtain ⟨M, eM, hM, hMe⟩ := s.powers_spec hsh' W (by rw [hn, ha]; exact fun h a x hh hx => (hW h a x hh hx).1)
  obtain ⟨hur, hue⟩ := s.usage_spec hsh'
  obtain ⟨hwr, hwe⟩ := s.water_spec hsh'
  rw [hn, ha] at hM hMe hur hue hwr hwe
  refine ⟨s, M.map List.sum, er, by unfold OccSim.powerDemand; simp only [bind, Except.bind, eM], by simp [hM.1], hur.1, hwr.1, ?_⟩
  intro h hh
  constructor
  · have hr := List.getElem?_eq_getElem (show h < M.length by rw [hM.1]; exact hh)
    refine ⟨M[h]'(by rw [hM.1]; exact hh), by rw [List.getElem?_map, hr]; rfl, hM.2 _ (List.getElem_mem _), ?_⟩
    intro a x w hx hw
    have := hMe h a hh (List.getElem?_eq_some_iff.1 hx).1
    unfold ent at this
    rw [hr, Option.bind_some, hw] at this
    rw [Option.some.inj this]
    exact (hW h a x hh hx).2
  · have hr := List.getElem?_eq_getElem (show h < s.usage.length by rw [hur.1]; exact hh)
    have hr' := List.getElem?_eq_getElem (show h < s.water.length by rw [hwr.1]; exact hh)
    refine ⟨_, _, hr, hr', hur.2 _ (List.getElem_mem _), hwr.2 _ (List.getElem_mem _), ?_⟩
    intro a x hx
    have h1 := hue h a x hh hx
    have h2 := hwe h a x hh hx
    unfold ent at h1 h2
    rw [hr, Option.bind_some] at h1
    rw [hr', Option.bind_some] at h2
    refine ⟨?_, ?_, ?_⟩
    · rw [h1]
      unfold Appl.usage
      simp only [gt_iff_lt, Bool.decide_and, Bool.decide_eq_true]
    · rw [h2]
      have : (s.appl h a x).flow = x.flow := rfl
      unfold Appl.occWater
      rw [this]
      obtain ⟨l, hl⟩ : ∃ l, l = (s.st h a).left := ⟨_, rfl⟩
      rw [← hl]
      congr 1
      by_cases c1 : l ≥ 1
      · rw [if_pos c1, if_neg (by intro c; linarith [c.2]), min_eq_left c1, max_eq_right (by norm_num)]
        ring
      · by_cases c2 : 0 < l
        · push Not at c1
          rw [if_neg (by linarith), if_pos ⟨c2, c1⟩, min_eq_right c1.le, max_eq_right c2.le]
          ring
        · push Not at c1 c2
          rw [if_neg (by linarith), if_neg (by intro c; linarith [c.1]), min_eq_right c1.le, max_eq_left c2]
          ring
    · intro ho
      obtain ⟨b, ins, hb, hst, hu'⟩ := hstate h a x hh hx
      rw [hst]
      exact left_unowned _ ho ins b hb hu'

/-! ## An example -/

/-- A kettle. -/
def demoKettleInfo : AppInfo :=
  { name := "kettle".toList, type := "kettle".toList, activity := "cooking".toList, equippedProb := 1, probabilistic := true, meanDuration := 3, switchOnProb := 1 / 2, targetSwitchons := 0,
    previousActivity := none, previousType := none }

/-- A kettle and a shower. -/
def demoOccApps : List AppData :=
  [ { info := demoKettleInfo, standby := 1, meanPower := 2000, usesWater := false, flow := 0, delay := 1, switchOff := true },
    { info := { demoKettleInfo with name := "shower".toList, type := "shower".toList, activity := "washing".toList, meanDuration := 5, switchOnProb := 1 }, standby := 0, meanPower := 0, usesWater := true, flow := 8, delay := 2, switchOff := false } ]

/-- More is cooked at week-ends. -/
def demoOccProfiles (g : Subgroup) : List (Str × List (List Rat)) :=
  [("cooking".toList, List.replicate 144 (if g.at kWeekday = some (.list [6, 7]) then [0, 1 / 2, 1] else [0, 1 / 4, 1 / 2])), ("washing".toList, List.replicate 144 [0, 1 / 10, 1 / 5])]

/-- Everything is owned, no load profiles, nobody active during the initialisation. -/
def demoOccArgs : OccSim.OccArgs := { equip := .all, real := .nothing, initial := some [0, 0], uOwned := fun _ _ => 0, draw := fun _ _ => 0, draw' := fun _ _ => 0, delay := fun _ _ => 0 }

theorem demoOcc_setup : OccSetup demoOccApps demoOccProfiles [] [] 14400000000 60000000 [[], []] [1, 1] none 14700000000 demoOccArgs 2 where
  refresh0 := by norm_num
  refresh1 := by norm_num
  refresh10 := by norm_num
  fullMinute := by norm_num
  inhabited := by decide
  enough := by decide
  someApp := List.cons_ne_nil _ _
  stepOk := rfl
  complete := by
    intro g _ day g' _ x hx
    unfold demoOccApps at hx
    simp only [List.mem_cons, List.not_mem_nil, or_false] at hx
    rcases hx with rfl | rfl
    · refine ⟨_, rfl, List.length_replicate, ?_⟩
      intro r hr
      rw [(List.mem_replicate.1 hr).2]
      split_ifs <;> decide
    · refine ⟨List.replicate 144 [0, 1 / 10, 1 / 5], by rfl, List.length_replicate, ?_⟩
      intro r hr
      rw [(List.mem_replicate.1 hr).2]
      decide
  some' := by norm_num
  initialOk := by
    intro occ h
    rw [← Option.some.inj h]
    decide
  usable := trivial
  known := by unfold demoOccArgs; simp
  notEmpty := by
    intro x _
    exact ⟨nofun, nofun⟩

theorem demoOcc_content : OfContent demoOccProfiles := by
  intro g g' h
  unfold demoOccProfiles
  rw [h kWeekday]

example : OccProfilesOk demoOccApps [] [] demoOccArgs := .inl rfl

/-- Two minutes: someone uses the kettle in the first household, nobody is active in the second. -/
def demoOccInputs : List (List Nat × OccDraws) :=
  [([2, 0], { u := fun _ a => if a = 0 then 1 / 10 else 1 / 2, unused := fun _ => 0, volume := fun _ => 40 }), ([2, 0], { u := fun _ _ => 1 / 2, unused := fun _ => 0, volume := fun _ => 40 })]

example : OccSim.OkInputs ([1, 1] : List Nat).sum 2 demoOccInputs ∧ DrawsOk demoOccInputs := by
  constructor
  · unfold OccSim.OkInputs demoOccInputs
    simp
  · intro i hi h a
    unfold demoOccInputs at hi
    simp only [List.mem_cons, List.not_mem_nil, or_false] at hi
    rcases hi with rfl | rfl
    · simp only
      split_ifs <;> norm_num
    · norm_num

example : (do
    let s0 ← OccSim.create demoOccApps demoOccProfiles [] [] 14400000000 60000000 [[], []] [1, 1] none 14700000000 demoOccArgs fun _ => { u := fun _ _ => 1, unused := fun _ => 0, volume := fun _ => 0 }
    let s ← OccSim.run demoOccProfiles 14400000000 s0 demoOccInputs
    let p ← s.powerDemand
    .ok (p, s.usage, s.time) : Except PyErr _) = .ok ([2000, 1], [[true, false], [false, false]], 14820000000) := by decide +kernel

/-- `C109_alone` applies to the kettle of the first of the two households and to that of a household simulated alone. -/
example : ∃ s0 s0', OccSim.create demoOccApps demoOccProfiles [] [] 14400000000 60000000 [[], []] [1, 1] none 14700000000 demoOccArgs (fun _ => { u := fun _ _ => 1, unused := fun _ => 0, volume := fun _ => 0 }) = .ok s0 ∧
    OccSim.create demoOccApps demoOccProfiles [] [] 14400000000 60000000 [[]] [1] none 14700000000 { demoOccArgs with initial := some [0] } (fun _ => { u := fun _ _ => 1, unused := fun _ => 0, volume := fun _ => 0 }) = .ok s0' ∧
    s0.appl 0 0 demoOccApps[0] = s0'.appl 0 0 demoOccApps[0] := by
  have h : (match OccSim.create demoOccApps demoOccProfiles [] [] 14400000000 60000000 [[], []] [1, 1] none 14700000000 demoOccArgs (fun _ => { u := fun _ _ => 1, unused := fun _ => 0, volume := fun _ => 0 }),
      OccSim.create demoOccApps demoOccProfiles [] [] 14400000000 60000000 [[]] [1] none 14700000000 { demoOccArgs with initial := some [0] } (fun _ => { u := fun _ _ => 1, unused := fun _ => 0, volume := fun _ => 0 }) with
    | .ok s, .ok s' => decide (((s.owned.getD 0 []).getD 0 false, s.choice.varLoad 0, s.choice.duration 0 0, ((s.choice.loads demoOccApps[0].info.type).getD []).getD (s.choice.id 0 0) []) =
        ((s'.owned.getD 0 []).getD 0 false, s'.choice.varLoad 0, s'.choice.duration 0 0, ((s'.choice.loads demoOccApps[0].info.type).getD []).getD (s'.choice.id 0 0) []))
    | _, _ => false) = true := by decide +kernel
  split at h
  · next s s' e e' =>
    have h := of_decide_eq_true h
    simp only [Prod.mk.injEq] at h
    refine ⟨s, s', e, e', ?_⟩
    unfold OccSim.appl applOf
    rw [h.1, h.2.1, h.2.2.1, h.2.2.2]
  · cases h

/-- **C109 (counterexample).** One would expect the arguments of the constructor to be left alone. The dictionaries of the subgroups given to it are not: it writes the kind of day into them. -/
theorem C109_arguments_counterexample : ∃ (apps : List AppData) (groups : List Subgroup) (s0 : OccSim),
    OccSim.create apps demoOccProfiles [] [] 14400000000 60000000 groups [1, 1] none 14700000000 demoOccArgs (fun _ => { u := fun _ _ => 1, unused := fun _ => 0, volume := fun _ => 0 }) = .ok s0 ∧
    groups.map (fun g => g.at kWeekday) = [none, none] ∧ s0.subgroups.map (fun g => g.at kWeekday) = [some (.list [1, 2, 3, 4, 5]), some (.list [1, 2, 3, 4, 5])] := by
  have h : (match OccSim.create demoOccApps demoOccProfiles [] [] 14400000000 60000000 [[], []] [1, 1] none 14700000000 demoOccArgs (fun _ => { u := fun _ _ => 1, unused := fun _ => 0, volume := fun _ => 0 }) with
    | .ok s => decide (s.subgroups.map (fun g => g.at kWeekday) = [some (.list [1, 2, 3, 4, 5]), some (.list [1, 2, 3, 4, 5])])
    | .error _ => false) = true := by decide +kernel
  split at h
  · next s e => exact ⟨demoOccApps, [[], []], s, e, rfl, of_decide_eq_true h⟩
  · cases h

end Demod
