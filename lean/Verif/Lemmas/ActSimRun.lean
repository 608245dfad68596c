import Verif.Lemmas.ActSim
import Verif.Lemmas.OccSimRun

/-! # Creation and runs of `ActivityApplianceSimulator` -/

namespace Demod

theorem mapM_values {α β : Type} (l : List α) (f : α → Except PyErr β) (g : α → β) (h : ∀ a ∈ l, f a = .ok (g a)) : l.mapM f = .ok (l.map g) := by
  induction l with
  | nil => rfl
  | cons a l ih =>
    rw [List.mapM_cons, h a List.mem_cons_self]
    simp only [bind, Except.bind]
    rw [ih fun b hb => h b (List.mem_cons_of_mem _ hb)]
    rfl

theorem ent_range {α : Type} (apps : List AppData) (n : Nat) (F : Nat → AppData × Nat → α) (h a : Nat) (x : AppData) (hh : h < n) (hx : apps[a]? = some x) :
    ent ((List.range n).map fun h => apps.zipIdx.map (F h)) h a = some (F h (x, a)) := by
  unfold ent
  rw [List.getElem?_map, List.getElem?_range hh, Option.map_some, Option.bind_some, List.getElem?_map, List.getElem?_zipIdx, hx]
  simp

theorem rect_range {α : Type} (apps : List AppData) (n : Nat) (F : Nat → AppData × Nat → α) : Rect n apps.length ((List.range n).map fun h => apps.zipIdx.map (F h)) := by
  refine ⟨by simp, ?_⟩
  intro r hr
  obtain ⟨-, -, rfl⟩ := List.mem_map.1 hr
  simp

/-- The load profiles that were drawn, for the appliances of the simulation. -/
theorem choice_rows (apps : List AppData) (owned : List (List Bool)) (choice : ProfileChoice) (switchedOn full : ProfilesDict (List Rat)) (args : ActSim.ActArgs) (h : ActProfilesOk apps switchedOn full args)
    (hc : chooseProfiles (apps.map (·.info)) (fun h a => (owned.getD h []).getD a false) switchedOn full args.draw args.draw' args.real = .ok choice) (hh a : Nat) (x : AppData) (hx : apps[a]? = some x) :
    ((applOf owned choice hh a x).owned = true → (applOf owned choice hh a x).varLoad = true → 0 < (applOf owned choice hh a x).loadDuration ∧ (applOf owned choice hh a x).loadDuration ≤ (applOf owned choice hh a x).row.length ∧
      (x.info.AlwaysOn → 2 ≤ (applOf owned choice hh a x).loadDuration)) ∧ ((applOf owned choice hh a x).owned = false ∨ (applOf owned choice hh a x).varLoad = false → choice.duration hh a = 0) := by
  change ((owned.getD hh []).getD a false = true → choice.varLoad a = true → 0 < choice.duration hh a ∧ choice.duration hh a ≤ (((choice.loads x.info.type).getD []).getD (choice.id hh a) []).length ∧ (x.info.AlwaysOn → 2 ≤ choice.duration hh a)) ∧
    ((owned.getD hh []).getD a false = false ∨ choice.varLoad a = false → choice.duration hh a = 0)
  rcases h with h | ⟨h, hsep, hfull, hsw⟩
  · rw [h] at hc
    unfold chooseProfiles at hc
    rw [← Except.ok.inj hc]
    exact ⟨fun _ hv => by (cases hv), fun _ => rfl⟩
  · rw [h] at hc
    have hx' : (apps.map (·.info))[a]? = some x.info := by rw [List.getElem?_map, hx]; rfl
    obtain ⟨c1, c2, c3, c4⟩ := C85_uniform_partial _ _ _ _ _ _ _ hsep hc hh a x.info hx'
    have key : ∀ p : List Rat, (choice.duration hh a = p.length ∧ ∃ rows n, choice.loads x.info.type = some rows ∧ rows[choice.id hh a]? = some (p ++ List.replicate n 0)) →
        choice.duration hh a = p.length ∧ choice.duration hh a ≤ (((choice.loads x.info.type).getD []).getD (choice.id hh a) []).length := by
      rintro p ⟨d1, rows, n, d2, d3⟩
      rw [d1, d2, Option.getD_some, List.getD_eq_getElem?_getD, d3, Option.getD_some]
      exact ⟨rfl, by simp⟩
    by_cases hon : x.info.AlwaysOn
    · cases hf : full.get x.info.type with
      | none =>
        obtain ⟨c, d⟩ := c3 (fun _ => hf) (fun c => absurd hon c)
        exact ⟨fun _ hv => by rw [c] at hv; (cases hv), fun _ => d⟩
      | some named =>
        obtain ⟨name, p, hd, hp⟩ := hfull a x named hx hon hf hh
        obtain ⟨v, f⟩ := c1 named p name hon hf hd
        refine ⟨fun ho hv => ?_, ?_⟩
        · obtain ⟨k1, k2⟩ := key p (f ho)
          exact ⟨by omega, k2, fun _ => by omega⟩
        · rintro (ho | hv)
          · exact c4 ho
          · rw [v] at hv; cases hv
    · cases hf : switchedOn.get x.info.type with
      | none =>
        obtain ⟨c, d⟩ := c3 (fun c => absurd c hon) (fun _ => hf)
        exact ⟨fun _ hv => by rw [c] at hv; (cases hv), fun _ => d⟩
      | some named =>
        obtain ⟨name, p, hd, hp⟩ := hsw a x named hx hon hf hh
        obtain ⟨v, f⟩ := c2 named p name hon hf hd
        refine ⟨fun ho hv => ?_, ?_⟩
        · obtain ⟨k1, k2⟩ := key p (f ho)
          have := List.length_pos_iff.2 hp
          exact ⟨by omega, k2, fun c => absurd c hon⟩
        · rintro (ho | hv)
          · exact c4 ho
          · rw [v] at hv; cases hv

namespace ActSim

theorem initFold_spec (acts : Activities) : ∀ (s : ActSim), s.Shaped → (acts.map (·.1)).Nodup → (∀ q ∈ acts, q.2.length = s.owned.length) →
    ∃ s', acts.foldlM (fun s q => s.initActivity q.1 q.2) s = .ok s' ∧ s'.Shaped ∧ Frame s s' ∧ s'.prev = s.prev ∧ ∀ h a x q, h < s.owned.length → s.apps[a]? = some x →
      s'.stp h a q = if 0 < acts.performing x.info.activity h then (s.appl h a x).actSwitchOn (s.stp h a q) else s.stp h a q := by
  induction acts with
  | nil => intro s hs _ _; exact ⟨s, rfl, hs, Frame.refl s, rfl, fun h a x q _ _ => rfl⟩
  | cons r acts ih =>
    intro s hs hnd hp
    rw [List.map_cons, List.nodup_cons] at hnd
    obtain ⟨r1, r2⟩ := r
    have hl : r2.length = s.owned.length := hp _ List.mem_cons_self
    obtain ⟨s1, e1, g1, g2, g3, g4⟩ := switchOn_spec s hs (cross (r2.map fun k => decide (k > 0)) (s.apps.map fun (x : AppData) => decide (x.info.activity = r1))) (trueAt_nodup _) (by
      rintro ⟨h, a⟩ hq
      have := cross_lt _ _ _ _ hq
      simp only [List.length_map] at this
      rw [← hl]
      exact this)
    obtain ⟨s', e', k1, k2, k3, k4⟩ := ih s1 g1 hnd.2 (by
      rw [g2.owned]
      exact fun q hq => hp q (List.mem_cons_of_mem _ hq))
    refine ⟨s', ?_, k1, g2.trans k2, k3.trans g3, ?_⟩
    · rw [List.foldlM_cons]
      have : s.initActivity r1 r2 = .ok s1 := by
        unfold initActivity
        rw [if_neg (not_not.2 hl)]
        exact e1
      simp only [bind, Except.bind]
      rw [this]
      exact e'
    · intro h a x q hh hx
      rw [k4 h a x q (by rw [g2.owned]; exact hh) (by rw [g2.apps]; exact hx), g4 h a x q hh hx, g2.appl]
      have hr : (r2.map fun k => decide (k > 0))[h]? = some (decide (r2.getD h 0 > 0)) := by
        rw [List.getElem?_map, List.getElem?_eq_getElem (by omega), List.getD_eq_getElem?_getD, List.getElem?_eq_getElem (by omega)]
        rfl
      have := ent_cross _ (s.apps.map fun (x : AppData) => decide (x.info.activity = r1)) h a _ (decide (x.info.activity = r1)) hr (by rw [List.getElem?_map, hx]; rfl)
      unfold Activities.performing
      rw [List.lookup_cons]
      by_cases hact : x.info.activity = r1
      · rw [hact, lookup_none_of acts r1 hnd.1]
        simp only [hact, decide_true, and_true, decide_eq_true_eq] at this
        simp only [Option.getD_none, List.getD_nil, Nat.lt_irrefl, if_false, beq_self_eq_true, Option.getD_some]
        by_cases hm : 0 < r2.getD h 0
        · rw [if_pos hm, if_pos (this.2 hm)]
        · rw [if_neg hm, if_neg (fun c => hm (this.1 c))]
      · have hb : (x.info.activity == r1) = false := by simpa using hact
        simp only [hb]
        rw [if_neg (c := (h, a) ∈ _)]
        intro c
        have := (this.1 c).2
        simp [hact] at this

theorem initialLeft_spec (apps : List AppData) (choice : ProfileChoice) (draw : Nat → Nat → Nat) (owned : List (List Bool))
    (h2 : ∀ h a x, h < owned.length → apps[a]? = some x → x.info.AlwaysOn → choice.duration h a ≠ 1) :
    ∃ left, initialLeft apps choice draw owned = .ok left ∧ Rect owned.length apps.length left ∧ ∀ h a x, h < owned.length → apps[a]? = some x →
      (¬ x.info.AlwaysOn → ent left h a = some 0) ∧ (x.info.AlwaysOn → ent left h a = some (if choice.duration h a > 0 then ((1 + draw h a % (choice.duration h a - 1) : Nat) : Rat) else 0)) := by
  obtain ⟨F, hF⟩ : ∃ F : Nat → AppData × Nat → Rat, F = fun h q => if q.1.info.AlwaysOn then (if choice.duration h q.2 > 0 then ((1 + draw h q.2 % (choice.duration h q.2 - 1) : Nat) : Rat) else 0) else 0 := ⟨_, rfl⟩
  refine ⟨(List.range owned.length).map fun h => apps.zipIdx.map (F h), ?_, rect_range apps _ F, ?_⟩
  · unfold initialLeft
    apply mapM_values
    intro h hh
    apply mapM_values
    intro q hq
    have hx : apps[q.2]? = some q.1 := by
      have := List.mem_zipIdx_iff_getElem?.1 hq
      exact this
    have hd := h2 h q.2 q.1 (List.mem_range.1 hh) hx
    unfold initialSteps
    rw [hF]
    by_cases hon : q.1.info.AlwaysOn
    · have hon' : decide (q.1.info.activity ∈ alwaysOn) = true := by
        unfold AppInfo.AlwaysOn at hon
        simp only [alwaysOn, List.mem_cons, List.not_mem_nil, or_false, decide_eq_true_eq]
        exact hon
      have := hd hon
      rw [hon']
      simp only [if_pos hon, Bool.and_true, decide_eq_true_eq]
      by_cases c : choice.duration h q.2 > 0
      · rw [if_pos c, if_pos c, if_pos (by omega)]; rfl
      · rw [if_neg c, if_neg c]; rfl
    · have hon' : decide (q.1.info.activity ∈ alwaysOn) = false := by
        unfold AppInfo.AlwaysOn at hon
        simp only [alwaysOn, List.mem_cons, List.not_mem_nil, or_false, decide_eq_false_iff_not]
        exact hon
      rw [hon']
      simp only [if_neg hon, Bool.and_false, Bool.false_eq_true, if_false]
      rfl
  · intro h a x hh hx
    rw [ent_range apps _ F h a x hh hx, hF]
    exact ⟨fun c => by simp only [if_neg c], fun c => by simp only [if_pos c]⟩

theorem kept_eq (flags : Bool) (acts : Activities) (apps : List AppData) :
    (apps.filter fun x => decide (x.info.activity ∈ acts.map (·.1) ++ alwaysOn) && (!flags || !x.info.probabilistic)) = actApps flags acts apps := by
  unfold actApps
  refine List.filter_congr fun x _ => ?_
  rw [Bool.eq_iff_iff, decide_eq_true_eq]
  have hon : x.info.AlwaysOn ↔ x.info.activity ∈ alwaysOn := by
    unfold AppInfo.AlwaysOn alwaysOn
    rw [List.mem_cons, List.mem_cons]
    simp only [List.not_mem_nil, or_false]
  rw [hon]
  cases flags <;> cases x.info.probabilistic <;> simp

/-- The state at the first visit of the logger: nothing is in use. -/
theorem create_spec (apps : List AppData) (flags : Bool) (switchedOn full : ProfilesDict (List Rat)) (groups : List Subgroup) (ns : List Nat) (acts : Activities) (args : ActArgs)
    (hs : ActSetup (actApps flags acts apps) switchedOn full groups ns acts args) :
    ∃ first s0 t, createLogged apps flags switchedOn full groups ns acts args = .ok (first, s0) ∧ s0.apps = actApps flags acts apps ∧ t.length = ns.sum ∧ (∀ (h k : Nat), t[h]? = some k ↔ InSubgroup ns h k) ∧
      sampleAvailable ((actApps flags acts apps).map (·.info)) groups t args.uOwned args.equip = .ok s0.owned ∧
      chooseProfiles ((actApps flags acts apps).map (·.info)) (fun h a => (s0.owned.getD h []).getD a false) switchedOn full args.draw args.draw' args.real = .ok s0.choice ∧
      s0.Shaped ∧ s0.owned.length = ns.sum ∧ s0.prev = acts ∧ (∀ h a x, h < ns.sum → (actApps flags acts apps)[a]? = some x →
        (¬ x.info.AlwaysOn → s0.st h a x = (s0.appl h a x).actInit (if x.delay > 0 then ((args.delay h a % x.delay : Nat) : Int) else 0) (acts.performing x.info.activity h)) ∧
        (x.info.AlwaysOn → s0.st h a x = (s0.appl h a x).actInitAlwaysOn (if x.delay > 0 then ((args.delay h a % x.delay : Nat) : Int) else 0) (1 + args.start h a % ((s0.appl h a x).loadDuration - 1)))) ∧
      first.apps = s0.apps ∧ first.owned = s0.owned ∧ first.choice = s0.choice ∧ first.Shaped ∧ ∀ h a, (first.used.getD h []).getD a false = false := by
  have hn := hs.inhabited
  have hlen := hs.enough
  have hns : ns ≠ [] := by rintro rfl; simp at hn
  obtain ⟨t, ht, htl, hin⟩ := (C84_subgroups ns.sum groups ns).1 ⟨rfl, hns⟩
  have hkl' : ∀ k ∈ t, k < groups.length := by
    intro k hk
    obtain ⟨h, hh⟩ := List.mem_iff_getElem?.1 hk
    obtain ⟨q1, q2⟩ := (hin h k).1 hh
    by_contra hcon
    rw [List.take_of_length_le (by omega)] at q1 q2
    omega
  obtain ⟨kept, hkept⟩ : ∃ kept, kept = actApps flags acts apps := ⟨_, rfl⟩
  rw [← hkept] at hs ⊢
  obtain ⟨owned, howned, hrect⟩ := sampleAvailable_ok (kept.map (·.info)) groups t args.uOwned args.equip hkl' hs.usable
  rw [List.length_map] at hrect
  have hreal : args.real ≠ .unknown := by
    rcases hs.profiles with h | ⟨h, -⟩ <;> rw [h] <;> exact fun c => by cases c
  obtain ⟨choice, hchoice⟩ := chooseProfiles_ok kept (fun h a => (owned.getD h []).getD a false) switchedOn full args.draw args.draw' args.real hreal hs.notEmpty
  have hol : owned.length = ns.sum := by rw [hrect.1, htl]
  obtain ⟨left, eleft, rleft, hleft⟩ := initialLeft_spec kept choice args.start owned (by
    intro h a x _ hx hon c
    obtain ⟨c1, c2⟩ := choice_rows kept owned choice switchedOn full args hs.profiles hchoice h a x hx
    by_cases h1 : (applOf owned choice h a x).owned = true
    · by_cases h2 : (applOf owned choice h a x).varLoad = true
      · have := (c1 h1 h2).2.2 hon
        change 2 ≤ choice.duration h a at this
        omega
      · have := c2 (Or.inr (by simpa using h2))
        omega
    · have := c2 (Or.inl (by simpa using h1))
      omega)
  obtain ⟨till, etill⟩ : ∃ till : List (List Int), till = (List.range ns.sum).map fun h => kept.zipIdx.map fun q => if q.1.delay > 0 then ((args.delay h q.2 % q.1.delay : Nat) : Int) else 0 := ⟨_, rfl⟩
  obtain ⟨first, efirst⟩ : ∃ first : ActSim, first = { apps := kept, owned := owned, choice := choice, left := left, till := till, used := owned.map fun r => r.map fun _ => false, prev := [] } := ⟨_, rfl⟩
  have hrect' : Rect owned.length kept.length owned := ⟨rfl, hrect.2⟩
  have rtill : Rect owned.length kept.length till := by
    rw [etill, hol]
    exact rect_range kept ns.sum _
  have hfs : first.Shaped := by
    rw [efirst]
    exact ⟨hrect', rleft, rtill, rect_map hrect' _⟩
  have hfs' : ({ first with prev := acts } : ActSim).Shaped := ⟨hfs.owned, hfs.left, hfs.till, hfs.used⟩
  have f1 : first.apps = kept := by rw [efirst]
  have f2 : first.owned = owned := by rw [efirst]
  have f3 : first.choice = choice := by rw [efirst]
  have fused : ∀ h a, (first.used.getD h []).getD a false = false := by
    intro h a
    rw [efirst]
    simp only
    rw [List.getD_eq_getElem?_getD (l := owned.map fun r => r.map fun _ => false), List.getElem?_map]
    cases owned[h]? with
    | none => rfl
    | some r =>
      rw [Option.map_some, Option.getD_some, List.getD_eq_getElem?_getD, List.getElem?_map]
      cases r[a]? <;> rfl
  obtain ⟨s1, e1, g1, g2, g3, g4⟩ := initFold_spec acts { first with prev := acts } hfs' hs.activities.nodup (by
    intro q hq
    simp only
    rw [f2, hol]
    exact hs.activities.length q hq)
  obtain ⟨k1, k2⟩ := update_spec s1 g1
  have a1 : s1.apps = kept := g2.apps.trans f1
  have a2 : s1.owned = owned := g2.owned.trans f2
  have a3 : s1.choice = choice := g2.choice.trans f3
  obtain ⟨s0, es0⟩ : ∃ s0 : ActSim, s0 = { s1.update with used := s1.update.used.map fun r => (r.zip kept).map fun q => q.1 || decide (q.2.info.activity ∈ alwaysOn) } := ⟨_, rfl⟩
  have b1 : s0.apps = kept := by rw [es0]; exact a1
  have b2 : s0.owned = owned := by rw [es0]; exact a2
  have b3 : s0.choice = choice := by rw [es0]; exact a3
  have b4 : s0.prev = acts := by rw [es0]; exact g3
  have hus : Rect owned.length kept.length s1.used := by have := g1.used; rwa [a1, a2] at this
  have hus0 : ∀ h a x, h < owned.length → kept[a]? = some x → ent s0.used h a = some ((s1.used.getD h []).getD a false || decide (x.info.activity ∈ alwaysOn)) := by
    intro h a x hh hx
    have ha : a < kept.length := (List.getElem?_eq_some_iff.1 hx).1
    obtain ⟨u, eu⟩ := hus.ent hh ha
    rw [ent_getD eu]
    rw [es0]
    unfold ent at eu ⊢
    obtain ⟨r, er, eu⟩ := Option.bind_eq_some_iff.1 eu
    have er' : s1.update.used[h]? = some r := er
    simp only
    rw [List.getElem?_map, er', Option.map_some, Option.bind_some, List.getElem?_map, zip_get (z := (u, x)) eu hx]
    rfl
  have hsh0 : s0.Shaped := by
    refine ⟨?_, ?_, ?_, ?_⟩
    · rw [b1, b2]; exact hrect'
    · have := k1.left
      rw [show s1.update.owned = owned from a2, show s1.update.apps = kept from a1] at this
      rw [b1, b2, es0]
      exact this
    · have := k1.till
      rw [show s1.update.owned = owned from a2, show s1.update.apps = kept from a1] at this
      rw [b1, b2, es0]
      exact this
    · rw [b1, b2, es0]
      refine ⟨by rw [List.length_map]; exact hus.1, ?_⟩
      intro r hr
      obtain ⟨r', hr', rfl⟩ := List.mem_map.1 hr
      have := hus.2 r' hr'
      simp [this]
  have hcr : createLogged apps flags switchedOn full groups ns acts args = .ok (first, s0) := by
    unfold createLogged
    simp only [bind, Except.bind, ht]
    rw [if_neg (by omega), kept_eq, ← hkept, howned]
    simp only [hchoice, eleft, ← etill, ← efirst]
    have e1' : acts.foldlM (fun s q => s.initActivity q.1 q.2)
        ({ apps := kept, owned := owned, choice := choice, left := left, till := till, used := owned.map fun r => r.map fun _ => false, prev := acts } : ActSim) = .ok s1 := by
      rw [efirst] at e1
      exact e1
    rw [e1']
    simp only
    rw [if_neg hs.someApp, es0]
  refine ⟨first, s0, t, hcr, b1, htl, hin, by rw [b2]; exact howned, by rw [b2, b3]; exact hchoice, hsh0, by rw [b2]; exact hol, b4, ?_, by rw [b1, f1], by rw [b2, f2], by rw [b3, f3], hfs, fused⟩
  intro h a x hh hx
  have hh' : h < owned.length := by omega
  have hA : s0.appl h a x = applOf owned choice h a x := by unfold appl; rw [b2, b3]
  have hA1 : s1.appl h a x = applOf owned choice h a x := by unfold appl; rw [a2, a3]
  have hAf : ({ first with prev := acts } : ActSim).appl h a x = applOf owned choice h a x := by unfold appl; simp only; rw [f2, f3]
  have q1 := k2 h a x (acts.performing x.info.activity h) (by rw [a2]; exact hh') (by rw [a1]; exact hx)
  have q2 := g4 h a x (acts.performing x.info.activity h) (by simp only; rw [f2]; exact hh') (by simp only; rw [f1]; exact hx)
  have hst : s0.st h a x = { s1.update.stp h a (acts.performing x.info.activity h) with used := (s1.used.getD h []).getD a false || decide (x.info.activity ∈ alwaysOn) } := by
    unfold st stp
    rw [ent_getD (hus0 h a x hh' hx), b4, es0]
  have htill : ent till h a = some (if x.delay > 0 then ((args.delay h a % x.delay : Nat) : Int) else 0) := by
    rw [etill]
    exact ent_range kept ns.sum _ h a x hh hx
  obtain ⟨l1, l2⟩ := hleft h a x hh' hx
  have hf : ∀ l q, ent left h a = some l → ({ first with prev := acts } : ActSim).stp h a q = ⟨⟨l, if x.delay > 0 then ((args.delay h a % x.delay : Nat) : Int) else 0⟩, false, q⟩ := by
    intro l q hl
    unfold stp
    simp only
    rw [fused, efirst]
    simp only
    rw [ent_getD hl, ent_getD htill]
  have hused1 : (s1.used.getD h []).getD a false = (s1.stp h a (acts.performing x.info.activity h)).used := rfl
  constructor
  · intro hon
    have hdec : decide (x.info.activity ∈ alwaysOn) = false := by
      unfold AppInfo.AlwaysOn at hon
      simp only [alwaysOn, List.mem_cons, List.not_mem_nil, or_false, decide_eq_false_iff_not]
      exact hon
    rw [hst, hused1, q1, q2, hf _ _ (l1 hon), hA, hA1, hAf, hdec]
    unfold Appl.actInit
    simp only [Bool.or_false]
  · intro hon
    have hdec : decide (x.info.activity ∈ alwaysOn) = true := by
      unfold AppInfo.AlwaysOn at hon
      simp only [alwaysOn, List.mem_cons, List.not_mem_nil, or_false, decide_eq_true_eq]
      exact hon
    have hnot : x.info.activity ∉ acts.map (·.1) := by
      intro c
      have := hs.activities.proper _ c
      unfold AppInfo.AlwaysOn at hon
      tauto
    have hp0 : acts.performing x.info.activity h = 0 := by unfold Activities.performing; rw [lookup_none_of acts _ hnot]; rfl
    rw [hst, hused1, q1, q2, hp0, if_neg (Nat.lt_irrefl 0), hf _ _ (l2 hon), hA, hA1, hdec]
    unfold Appl.actInitAlwaysOn
    simp only [Bool.or_true]
    rfl

theorem run_spec (names : List Str) (inputs : List Activities) : ∀ (s : ActSim), s.Shaped → (∀ x ∈ s.apps, x.info.activity ∈ names ∨ x.info.AlwaysOn) → ActivitiesOk s.owned.length names s.prev →
    (∀ i ∈ inputs, ActivitiesOk s.owned.length names i) →
    ∃ s', run s inputs = .ok s' ∧ s'.Shaped ∧ Frame s s' ∧ ActivitiesOk s.owned.length names s'.prev ∧ ∀ h a x, h < s.owned.length → s.apps[a]? = some x →
      (¬ x.info.AlwaysOn → s'.st h a x = (s.appl h a x).actRun (s.st h a x) (inputs.map fun i => i.performing x.info.activity h)) ∧
      (x.info.AlwaysOn → s'.st h a x = (s.appl h a x).actStepAlwaysOn^[inputs.length] (s.st h a x)) := by
  have onk : ∀ (n : Nat) (acts : Activities) (x : AppData), ActivitiesOk n names acts → x.info.AlwaysOn → x.info.activity ∉ acts.map (·.1) := by
    intro n acts x hk hon c
    have := hk.proper _ c
    unfold AppInfo.AlwaysOn at hon
    tauto
  induction inputs with
  | nil =>
    intro s hs hx hp _
    refine ⟨s, rfl, hs, Frame.refl s, hp, fun h a x _ _ => ⟨fun _ => rfl, fun _ => rfl⟩⟩
  | cons i inputs ih =>
    intro s hs hx hp hi
    have hi0 := hi i List.mem_cons_self
    obtain ⟨s1, e1, g1, g2, g3, g4⟩ := step_spec s hs i hi0.nodup (by
      rintro q hq ⟨x, hxm, hxq⟩
      have hq' : q.1 ∈ i.map (·.1) := List.mem_map.2 ⟨q, hq, rfl⟩
      have hnm : q.1 ∈ names := by
        rcases hx x hxm with h | h
        · rw [← hxq]; exact h
        · exfalso
          apply onk _ i x hi0 h
          rw [hxq]
          exact hq'
      have hpm := hp.covers _ hnm
      cases hl : s.prev.lookup q.1 with
      | none =>
        rw [List.lookup_eq_none_iff] at hl
        obtain ⟨r, hr, e⟩ := List.mem_map.1 hpm
        have := hl r hr
        simp [e] at this
      | some p =>
        refine ⟨p, rfl, hp.length (q.1, p) ?_, hi0.length q hq⟩
        obtain ⟨l1, l2, e, -⟩ := List.lookup_eq_some_iff.1 hl
        rw [e]
        simp)
    obtain ⟨s', e', k1, k2, k3, k4⟩ := ih s1 g1 (by rw [g2.apps]; exact hx) (by rw [g2.owned, g3]; exact hi0) (by rw [g2.owned]; exact fun j hj => hi j (List.mem_cons_of_mem _ hj))
    refine ⟨s', ?_, k1, g2.trans k2, by rw [← g2.owned]; exact k3, ?_⟩
    · unfold run
      simp only [bind, Except.bind, e1]
      exact e'
    · intro h a x hh hxa
      obtain ⟨m1, m2⟩ := k4 h a x (by rw [g2.owned]; exact hh) (by rw [g2.apps]; exact hxa)
      obtain ⟨n1, n2⟩ := g4 h a x hh hxa
      rw [g2.appl] at m1 m2
      constructor
      · intro hon
        have hk : x.info.activity ∈ i.map (·.1) := by
          rcases hx x (List.mem_of_getElem? hxa) with h | h
          · exact hi0.covers _ h
          · exact absurd h hon
        rw [m1 hon, n1 hk]
        rfl
      · intro hon
        rw [m2 hon, n2 (onk _ i x hi0 hon) (onk _ s.prev x hp hon)]
        rfl

end ActSim

end Demod
