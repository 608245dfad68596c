import Verif.Lemmas.OccSim

/-! # Runs and construction of `OccupancyApplianceSimulator` -/

namespace Demod

theorem clock_run_succ (refresh : Int) (c : PdfClock) (k : Nat) : (c.run refresh k).step refresh = c.run refresh (k + 1) := rfl

namespace OccSim

theorem run_spec (profiles : Subgroup → List (Str × List (List Rat))) (refresh start : Int) (h0 : 0 ≤ refresh) (h1 : refresh < 86400000000) (h10 : refresh % 600000000 = 0) (hstart : start % 60000000 = 0)
    (G : List Subgroup) (m : Nat) (inputs : List (List Nat × OccDraws)) : ∀ (k : Nat) (s : OccSim), s.Shaped → s.Sync profiles G ((PdfClock.init refresh start).run refresh k) →
    CompleteProfiles profiles G s.apps m → s.apps ≠ [] → G ≠ [] → (∀ (h k : Nat), s.hhTypes[h]? = some k → k < G.length) → OkInputs s.hhTypes.length m inputs →
    ∃ s', OccSim.run profiles refresh s inputs = .ok s' ∧ s'.Shaped ∧ SameData s s' ∧ s'.Sync profiles G ((PdfClock.init refresh start).run refresh (k + inputs.length)) ∧
      ∃ rank : Nat → Nat × Nat → Nat, (∀ i, Function.Injective (rank i)) ∧ ∀ h a x, h < s.hhTypes.length → s.apps[a]? = some x → Follows profiles refresh G s s.time inputs rank h a x (s.st h a) (s'.st h a) := by
  induction inputs with
  | nil =>
    intro k s hs hy _ _ _ _ _
    exact ⟨s, rfl, hs, SameData.refl s, hy, fun _ q => Nat.pair q.1 q.2, fun _ p q h => by have := Nat.pair_eq_pair.1 h; exact Prod.ext this.1 this.2, fun h a x _ _ => ⟨[], rfl, rfl, by simp⟩⟩
  | cons inp inputs ih =>
    intro k s hs hy hc ha hG hk hi
    obtain ⟨occ, d⟩ := inp
    have htime : s.time = (PdfClock.init refresh start).time + k * 60000000 := by rw [hy.time, pdf_time]
    have hcur := (C77_row refresh start h0 h1 h10 k).2
    have hday := C77_day_partial refresh start h0 h1 h10 hstart k
    rw [← htime] at hcur hday
    have hb : (sinceRefresh refresh s.time / 600000000).toNat < 144 := by unfold sinceRefresh; omega
    have ho := hi (occ, d) List.mem_cons_self
    obtain ⟨s1, e1, hs1, hd1, hy1, rank, hrank, hent⟩ := step_spec profiles refresh G m s _ hs hy hc ha hG hk h10 occ ho.1 ho.2 d _ hcur hb
    rw [clock_run_succ] at hy1 hent
    obtain ⟨s', e, hs', hd, hy', ranks, hranks, hf⟩ := ih (k + 1) s1 hs1 hy1 (by rw [hd1.apps]; exact hc) (by rw [hd1.apps]; exact ha) hG (by rw [hd1.hhTypes]; exact hk)
      (by rw [hd1.hhTypes]; exact fun i hi' => hi i (List.mem_cons_of_mem _ hi'))
    have htime1 : s1.time = s.time + 60000000 := by
      rw [hy1.time, pdf_time, htime]
      push_cast
      ring
    refine ⟨s', ?_, hs', hd1.trans hd, ?_, fun i => if i = 0 then rank else ranks (i - 1), ?_, ?_⟩
    · unfold OccSim.run
      simp only [bind, Except.bind, e1]
      exact e
    · rw [List.length_cons, show k + (inputs.length + 1) = k + 1 + inputs.length by omega]
      exact hy'
    · intro i
      by_cases hz : i = 0
      · simp only [hz, if_true]; exact hrank
      · simp only [hz, if_false]; exact hranks _
    · intro h a x hh hx
      have hhocc : h < occ.length := by rw [ho.1]; exact hh
      obtain ⟨p, ⟨k', g, g', b1, b2, b3, b4⟩, hst⟩ := hent h a _ x (List.getElem?_eq_getElem hhocc) hx
      obtain ⟨ins, hl, hrun, hins⟩ := hf h a x (by rw [hd1.hhTypes]; exact hh) (by rw [hd1.apps]; exact hx)
      refine ⟨{ active := occ[h], prob := x.info.switchOnProb * p, u := d.u h a, volume := d.volume (rank (h, a)) } :: ins, by simp [hl], ?_, ?_⟩
      · rw [hrun, hd1.appl_eq, hst]
        rfl
      · intro i occ' d' hi'
        cases i with
        | zero =>
          obtain ⟨rfl, rfl⟩ : occ = occ' ∧ d = d' := by simpa using hi'
          refine ⟨_, p, k', g, g', List.getElem?_eq_getElem hhocc, b1, b2, ?_, ?_, rfl⟩
          · rw [show s.time + ((0 : Nat) : Int) * 60000000 = s.time by simp, ← hday]
            exact b3
          · rw [show s.time + ((0 : Nat) : Int) * 60000000 = s.time by simp]
            exact b4
        | succ i =>
          obtain ⟨n, p, k, g, g', c1, c2, c3, c4, c5, c6⟩ := hins i occ' d' (by simpa using hi')
          rw [htime1] at c4 c5
          have ht : s.time + 60000000 + (i : Int) * 60000000 = s.time + ((i + 1 : Nat) : Int) * 60000000 := by push_cast; ring
          rw [ht] at c4 c5
          refine ⟨n, p, k, g, g', c1, by rw [← hd1.hhTypes]; exact c2, c3, c4, c5, ?_⟩
          rw [List.getElem?_cons_succ, c6]
          simp

end OccSim

/-! ## Construction -/

theorem rect_map_const {α β : Type} (xs : List α) (r : List β) : Rect xs.length r.length (xs.map fun _ => r) := by
  refine ⟨by simp, ?_⟩
  intro q hq
  obtain ⟨-, -, rfl⟩ := List.mem_map.1 hq
  rfl

theorem drawOwned_rect {n k : Nat} (u : Nat → Nat → Rat) (rows : List (List Rat)) (h : Rect n k rows) : Rect n k (drawOwned u rows) := by
  unfold drawOwned
  refine ⟨by simp [h.1], ?_⟩
  intro r hr
  obtain ⟨i, hi, rfl⟩ := List.mem_mapIdx.1 hr
  rw [List.length_mapIdx]
  exact h.2 _ (List.getElem_mem _)

theorem sampleAvailable_ok (infos : List AppInfo) (groups : List Subgroup) (hhTypes : List Nat) (u : Nat → Nat → Rat) (alg : EquipAlgo) (hk : ∀ k ∈ hhTypes, k < groups.length) (h : alg.Usable groups) :
    ∃ owned, sampleAvailable infos groups hhTypes u alg = .ok owned ∧ Rect hhTypes.length infos.length owned := by
  cases alg with
  | basic => exact ⟨_, rfl, drawOwned_rect u _ (by have := rect_map_const hhTypes (infos.map (·.equippedProb)); rwa [List.length_map] at this)⟩
  | subgroup dict =>
    obtain ⟨probs, hprobs, hpl, hpr⟩ := mapM_rel (fun s => getOwnership (infos.map (·.type)) (dict s) (infos.map (·.equippedProb))) (fun _ r => r.length = infos.length) groups (fun s _ => by
      obtain ⟨out, ho, hl, -⟩ := C31_ownership (infos.map (·.type)) (dict s) (infos.map (·.equippedProb)) (by simp)
      exact ⟨out, ho, by simpa using hl⟩)
    obtain ⟨rows, hrows, hrl, hrr⟩ := mapM_rel (fun k => pyGet probs k) (fun _ (r : List Rat) => r.length = infos.length) hhTypes (fun k hk' => by
      obtain ⟨r, e1, e2⟩ := hpr k _ (List.getElem?_eq_getElem (hk k hk'))
      exact ⟨r, by unfold pyGet; rw [e1], e2⟩)
    refine ⟨drawOwned u rows, ?_, drawOwned_rect u _ ⟨hrl, ?_⟩⟩
    · unfold sampleAvailable
      simp only [bind, Except.bind, hprobs, hrows]
    · intro r hr
      obtain ⟨i, hi⟩ := List.mem_iff_getElem?.1 hr
      have hlt := (List.getElem?_eq_some_iff.1 hi).1
      rw [hrl] at hlt
      obtain ⟨y, hy, hy2⟩ := hrr i _ (List.getElem?_eq_getElem hlt)
      rw [hi] at hy
      rw [Option.some.inj hy]
      exact hy2
  | correlated => exact absurd h id
  | setDefined sets =>
    have hs : groups.length ≤ sets.length := h
    obtain ⟨probs, hprobs, hpl, hpr⟩ := mapM_rel (fun k => (pyGet sets k).map fun set => infos.map fun a : AppInfo => decide (a.name ∈ set)) (fun _ (r : List Bool) => r.length = infos.length) (List.range groups.length) (fun k hk' => by
      have : k < sets.length := by have := List.mem_range.1 hk'; omega
      refine ⟨infos.map fun a : AppInfo => decide (a.name ∈ sets[k]), ?_, by simp⟩
      unfold pyGet
      rw [List.getElem?_eq_getElem this]
      rfl)
    obtain ⟨rows, hrows, hrl, hrr⟩ := mapM_rel (fun k => pyGet probs k) (fun _ (r : List Bool) => r.length = infos.length) hhTypes (fun k hk' => by
      obtain ⟨r, e1, e2⟩ := hpr k k (by rw [List.getElem?_range (hk k hk')])
      exact ⟨r, by unfold pyGet; rw [e1], e2⟩)
    refine ⟨rows, ?_, ⟨hrl, ?_⟩⟩
    · unfold sampleAvailable
      simp only [bind, Except.bind, hprobs, hrows]
    · intro r hr
      obtain ⟨i, hi⟩ := List.mem_iff_getElem?.1 hr
      have hlt := (List.getElem?_eq_some_iff.1 hi).1
      rw [hrl] at hlt
      obtain ⟨y, hy, hy2⟩ := hrr i _ (List.getElem?_eq_getElem hlt)
      rw [hi] at hy
      rw [Option.some.inj hy]
      exact hy2
  | all => exact ⟨_, rfl, by have := rect_map_const hhTypes (infos.map fun _ => true); rwa [List.length_map] at this⟩
  | unknown => exact absurd h id

theorem chooseProfiles_ok (apps : List AppData) (owned : Nat → Nat → Bool) (switchedOn full : ProfilesDict (List Rat)) (draw draw' : Nat → Nat → Nat) (alg : ProfileAlgo) (ha : alg ≠ .unknown)
    (h : ProfilesNotEmpty apps switchedOn full) : ∃ ch, chooseProfiles (apps.map (·.info)) owned switchedOn full draw draw' alg = .ok ch := by
  have pass : ∀ always (dict : ProfilesDict (List Rat)) draw s, (∀ x ∈ apps, dict.get x.info.type ≠ some []) → ∃ s', choosePass (apps.map (·.info)) owned always dict draw s = .ok s' := by
    intro always dict draw s hd
    unfold choosePass
    refine (chooseTypes_ok _ owned dict draw _ _).2 fun T hT => ?_
    rw [List.mem_dedup, List.mem_map] at hT
    obtain ⟨y, hy, rfl⟩ := hT
    obtain ⟨x, hx, rfl⟩ := List.mem_map.1 (List.mem_filter.1 hy).1
    exact hd x hx
  cases alg with
  | nothing => exact ⟨_, rfl⟩
  | onlyAlwaysOn => exact pass _ _ _ _ fun x hx => (h x hx).1
  | onlySwitchedOn => exact pass _ _ _ _ fun x hx => (h x hx).2
  | uniform =>
    obtain ⟨s1, e1⟩ := pass false switchedOn draw .none' fun x hx => (h x hx).2
    obtain ⟨s2, e2⟩ := pass true full draw' s1 fun x hx => (h x hx).1
    refine ⟨s2, ?_⟩
    change (do let s ← choosePass (apps.map fun x : AppData => x.info) owned false switchedOn draw .none'; choosePass (apps.map fun x : AppData => x.info) owned true full draw' s) = _
    rw [e1]
    exact e2
  | unknown => exact absurd rfl ha

namespace OccSim

theorem create_spec (apps : List AppData) (profiles : Subgroup → List (Str × List (List Rat))) (switchedOn full : ProfilesDict (List Rat)) (refresh dataStep : Int) (groups : List Subgroup) (ns : List Nat) (stepSize : Option Int)
    (start : Int) (args : OccArgs) (e : Nat → OccDraws) (m : Nat)
    (h0 : 0 ≤ refresh) (h1 : refresh < 86400000000) (h10 : refresh % 600000000 = 0) (hstart : start % 60000000 = 0) (hn : 0 < ns.sum) (hlen : ns.length ≤ groups.length) (ha : apps ≠ [])
    (hstep : stepSize.getD dataStep = dataStep) (hc : CompleteProfiles profiles groups apps m) (hm : 1 ≤ m) (hinit : ∀ occ, args.initial = some occ → occ.length = ns.sum ∧ ∀ x ∈ occ, x ≤ m)
    (hequip : args.equip.Usable groups) (hreal : args.real ≠ .unknown) (hprof : ProfilesNotEmpty apps switchedOn full) :
    ∃ s0 t, create apps profiles switchedOn full refresh dataStep groups ns stepSize start args e = .ok s0 ∧ s0.apps = apps ∧ s0.hhTypes = t ∧ t.length = ns.sum ∧ (∀ (h k : Nat), t[h]? = some k ↔ InSubgroup ns h k) ∧
      sampleAvailable (apps.map (·.info)) groups t args.uOwned args.equip = .ok s0.owned ∧
      chooseProfiles (apps.map (·.info)) (fun h a => (s0.owned.getD h []).getD a false) switchedOn full args.draw args.draw' args.real = .ok s0.choice ∧
      s0.Shaped ∧ s0.Sync profiles groups ((PdfClock.init refresh start).run refresh (PdfClock.initSteps refresh start)) ∧
      ∃ rank : Nat → Nat × Nat → Nat, (∀ i, Function.Injective (rank i)) ∧ ∀ h a x, h < ns.sum → apps[a]? = some x →
        Follows profiles refresh groups s0 (PdfClock.init refresh start).time ((List.range (PdfClock.initSteps refresh start)).map fun k => (args.initial.getD (List.replicate ns.sum 1), e k)) rank h a x
          ⟨0, if x.delay > 0 then ((args.delay h a % x.delay : Nat) : Int) else 0⟩ (s0.st h a) := by
  have hns : ns ≠ [] := by rintro rfl; simp at hn
  obtain ⟨t, ht, htl, hin⟩ := (C84_subgroups ns.sum groups ns).1 ⟨rfl, hns⟩
  have hkl : ∀ (h k : Nat), t[h]? = some k → k < groups.length := by
    intro h k hk
    obtain ⟨q1, q2⟩ := (hin h k).1 hk
    by_contra hcon
    rw [List.take_of_length_le (by omega)] at q1 q2
    omega
  have hkl' : ∀ k ∈ t, k < groups.length := by
    intro k hk
    obtain ⟨h, hh⟩ := List.mem_iff_getElem?.1 hk
    exact hkl h k hh
  have hG : groups ≠ [] := by
    rintro rfl
    simp only [List.length_nil, Nat.le_zero, List.length_eq_zero_iff] at hlen
    exact hns hlen
  obtain ⟨owned, howned, hrect⟩ := sampleAvailable_ok (apps.map (·.info)) groups t args.uOwned args.equip hkl' hequip
  rw [List.length_map] at hrect
  obtain ⟨choice, hchoice⟩ := chooseProfiles_ok apps (fun h a => (owned.getD h []).getD a false) switchedOn full args.draw args.draw' args.real hreal hprof
  obtain ⟨s1, e1, hd1, -, -, hcur1, -, hpos1, hg1, hpdf1⟩ := loadDay_spec profiles groups m
    { apps := apps, owned := owned, choice := choice, subgroups := groups, hhTypes := t, left := [], till := [], pdf := [], pos := 0, current := none, time := start } start hc ha
    ⟨rfl, fun k g hk => ⟨g, hk, fun _ _ _ => rfl⟩⟩
  generalize hs2 : ({ s1 with left := owned.map fun r => r.map fun _ => (0 : Rat), till := (List.range ns.sum).map fun h => apps.zipIdx.map fun q => if q.1.delay > 0 then ((args.delay h q.2 % q.1.delay : Nat) : Int) else 0, time := (PdfClock.init refresh start).time } : OccSim) = s2
  have hd2 : s2.apps = apps ∧ s2.owned = owned ∧ s2.choice = choice ∧ s2.hhTypes = t := by subst hs2; exact ⟨hd1.apps, hd1.owned, hd1.choice, hd1.hhTypes⟩
  have hsh : s2.Shaped := by
    subst hs2
    refine ⟨?_, ?_, ?_⟩
    · rw [hd1.hhTypes, hd1.apps, hd1.owned]; exact hrect
    · simp only [hd1.hhTypes, hd1.apps]
      exact rect_map hrect _
    · simp only [hd1.hhTypes, hd1.apps]
      refine ⟨by simp [htl], ?_⟩
      intro r hr
      obtain ⟨-, -, rfl⟩ := List.mem_map.1 hr
      simp
  have hsync : s2.Sync profiles groups ((PdfClock.init refresh start).run refresh 0) := by
    subst hs2
    refine ⟨rfl, hg1, hpdf1, ?_, ?_⟩
    · show 0 = s1.pos % 144
      rw [hpos1]
    · intro r hr
      cases hr
  obtain ⟨s0, e0, hs0, hd0, hy0, rank, hrank, hf⟩ := run_spec profiles refresh start h0 h1 h10 hstart groups m
    ((List.range (PdfClock.initSteps refresh start)).map fun k => (args.initial.getD (List.replicate ns.sum 1), e k)) 0 s2 hsh hsync (by rw [hd2.1]; exact hc) (by rw [hd2.1]; exact ha) hG
    (by rw [hd2.2.2.2]; exact hkl) (by
      intro i hi
      obtain ⟨-, -, rfl⟩ := List.mem_map.1 hi
      rw [hd2.2.2.2, htl]
      cases hoc : args.initial with
      | some occ => exact hinit occ hoc
      | none =>
        refine ⟨by simp, fun x hx => ?_⟩
        have := List.eq_of_mem_replicate hx
        omega)
  have e0' := hd0.hhTypes.trans hd2.2.2.2
  refine ⟨s0, t, ?_, hd0.apps.trans hd2.1, e0', htl, hin, by rw [hd0.owned, hd2.2.1]; exact howned, by rw [hd0.owned, hd2.2.1, hd0.choice, hd2.2.2.1]; exact hchoice, hs0, ?_, rank, hrank, ?_⟩
  · unfold create
    simp only [bind, Except.bind, ht, howned, hchoice, e1]
    rw [if_neg (not_not.2 hstep), if_neg (by omega)]
    have hdt : initDatetime start (.time refresh) = .ok (if dayNumber start * DAY + refresh > start then dayNumber start * DAY + refresh - DAY else dayNumber start * DAY + refresh) := by
      unfold initDatetime
      simp only
      split_ifs <;> rfl
    rw [hdt]
    simp only
    rw [← e0, ← hs2]
    rfl
  · rw [List.length_map, List.length_range, Nat.zero_add] at hy0
    exact hy0
  · intro h a x hh hx
    have hf' := hf h a x (by rw [hd2.2.2.2, htl]; exact hh) (by rw [hd2.1]; exact hx)
    have hst : s2.st h a = ⟨0, if x.delay > 0 then ((args.delay h a % x.delay : Nat) : Int) else 0⟩ := by
      subst hs2
      unfold st
      have haa : a < apps.length := (List.getElem?_eq_some_iff.1 hx).1
      obtain ⟨b, hb⟩ := hrect.ent (by rw [htl]; exact hh) haa
      have e1 : ent (owned.map fun r => r.map fun _ => (0 : Rat)) h a = some 0 := (ent_map owned (fun _ => (0 : Rat)) h a).trans (by rw [hb]; rfl)
      have e2 : ent ((List.range ns.sum).map fun h => apps.zipIdx.map fun q => if q.1.delay > 0 then ((args.delay h q.2 % q.1.delay : Nat) : Int) else 0) h a = some (if x.delay > 0 then ((args.delay h a % x.delay : Nat) : Int) else 0) := by
        unfold ent
        simp [hh, hx]
      simp only
      rw [ent_getD e1, ent_getD e2]
    have htm : s2.time = (PdfClock.init refresh start).time := by subst hs2; rfl
    rw [hst, htm] at hf'
    obtain ⟨ins, i1, i2, i3⟩ := hf'
    refine ⟨ins, i1, by rw [hd0.appl_eq]; exact i2, ?_⟩
    rw [hd0.hhTypes]
    exact i3

end OccSim

end Demod
