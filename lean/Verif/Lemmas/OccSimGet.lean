import Verif.Lemmas.OccSimRun

/-! # Getters of `OccupancyApplianceSimulator` -/

namespace Demod

theorem ent_zip {α β γ : Type} (m : List (List α)) (m' : List (List β)) (f : α × β → γ) {h a : Nat} {x : α} {y : β} (hx : ent m h a = some x) (hy : ent m' h a = some y) :
    ent ((m.zip m').map fun r => (r.1.zip r.2).map f) h a = some (f (x, y)) := by
  unfold ent at *
  obtain ⟨r, hr, hx⟩ := Option.bind_eq_some_iff.1 hx
  obtain ⟨r', hr', hy⟩ := Option.bind_eq_some_iff.1 hy
  rw [List.getElem?_map, zip_get (z := (r, r')) hr hr', Option.map_some, Option.bind_some, List.getElem?_map, zip_get (z := (x, y)) hx hy]
  rfl

theorem rect_zip {α β γ : Type} {n k : Nat} {m : List (List α)} {m' : List (List β)} (f : α × β → γ) (hm : Rect n k m) (hm' : Rect n k m') :
    Rect n k ((m.zip m').map fun r => (r.1.zip r.2).map f) := by
  refine ⟨by simp [hm.1, hm'.1], ?_⟩
  intro q hq
  obtain ⟨⟨r, r'⟩, hr, rfl⟩ := List.mem_map.1 hq
  have := List.of_mem_zip hr
  simp [hm.2 r this.1, hm'.2 r' this.2]

theorem variableLoadsOf_spec (apps : List AppData) (choice : ProfileChoice) (owned : List (List Bool)) (left : List (List Rat)) (usage : List (List Bool)) (n : Nat) (hl : Rect n apps.length left)
    (hur : Rect n apps.length usage) (V : Nat → Nat → Rat)
    (hV : ∀ h a x u l, h < n → apps[a]? = some x → ent usage h a = some u → ent left h a = some l → (applOf owned choice h a x).variableLoad u ⟨l, 0⟩ = .ok (V h a)) :
    ∃ M, variableLoadsOf apps choice left usage = .ok M ∧ Rect n apps.length M ∧ ∀ h a, h < n → a < apps.length → ent M h a = some (V h a) := by
  obtain ⟨used, hused⟩ : ∃ used, used = trueAt (usage.map fun r => r.zipIdx.map fun q => q.1 && choice.varLoad q.2) := ⟨_, rfl⟩
  have hmask : (usage.map fun r => r.zipIdx.map fun q => q.1 && choice.varLoad q.2) = usage.zipIdx.map fun r => r.1.zipIdx.map fun q => q.1 && choice.varLoad q.2 := by
    apply List.ext_getElem?
    intro i
    simp only [List.getElem?_map, List.getElem?_zipIdx]
    cases usage[i]? <;> rfl
  have hmem : ∀ h a, (h, a) ∈ used ↔ h < n ∧ ∃ x, apps[a]? = some x ∧ ent usage h a = some true ∧ choice.varLoad a = true := by
    intro h a
    rw [hused, hmask, mem_trueAt, ent_mapIdx usage (fun _ a b => b && choice.varLoad a)]
    constructor
    · intro hq
      cases he : ent usage h a with
      | none => rw [he] at hq; cases hq
      | some b =>
        obtain ⟨h1, h2⟩ := hur.of_ent he
        have hx := List.getElem?_eq_getElem h2
        refine ⟨h1, _, hx, ?_⟩
        rw [he, Option.map_some] at hq
        have := Option.some.inj hq
        cases b <;> simp_all
    · rintro ⟨hh, x, hx, hu, hv⟩
      rw [hu, Option.map_some, hv]
      rfl
  have hnd : used.Nodup := by rw [hused]; exact trueAt_nodup _
  obtain ⟨typed, et, htl, htr⟩ := mapM_rel (fun q : Nat × Nat => (pyGet apps q.2).map fun x => (q, x.info.type)) (fun q y => y.1 = q ∧ ∃ x, apps[q.2]? = some x ∧ y.2 = x.info.type) used (by
    rintro ⟨h, a⟩ hq
    obtain ⟨-, x, hx, -⟩ := (hmem h a).1 hq
    refine ⟨((h, a), x.info.type), ?_, rfl, x, hx, rfl⟩
    unfold pyGet
    rw [hx]
    rfl)
  have htm : ∀ y ∈ typed, y.1 ∈ used ∧ ∃ x, apps[y.1.2]? = some x ∧ y.2 = x.info.type := by
    intro y hy
    obtain ⟨i, hi⟩ := List.mem_iff_getElem?.1 hy
    have hlt := (List.getElem?_eq_some_iff.1 hi).1
    rw [htl] at hlt
    obtain ⟨y', hy', e1, x, e2, e3⟩ := htr i _ (List.getElem?_eq_getElem hlt)
    rw [hi] at hy'
    obtain rfl := Option.some.inj hy'
    rw [e1]
    exact ⟨List.getElem_mem hlt, x, e2, e3⟩
  have htm' : ∀ h a x, (h, a) ∈ used → apps[a]? = some x → ((h, a), x.info.type) ∈ typed := by
    intro h a x hq hx
    obtain ⟨i, hi⟩ := List.mem_iff_getElem?.1 hq
    obtain ⟨y, hy, e1, x', e2, e3⟩ := htr i _ hi
    rw [hx] at e2
    obtain rfl := Option.some.inj e2
    have : y = ((h, a), x.info.type) := Prod.ext e1 e3
    rw [← this]
    exact List.mem_of_getElem? hy
  have htf : typed.map (fun y => y.1) = used := by
    apply List.ext_getElem?
    intro i
    rw [List.getElem?_map]
    by_cases hi : i < used.length
    · obtain ⟨y, hy, e1, -⟩ := htr i _ (List.getElem?_eq_getElem hi)
      rw [hy, Option.map_some, e1, List.getElem?_eq_getElem hi]
    · rw [List.getElem?_eq_none (by omega), List.getElem?_eq_none (by omega)]
      rfl
  obtain ⟨F, hF⟩ : ∃ F, F = (fun (m : List (List Rat)) (T : Str) => (do
    let here := (typed.filter fun q => decide (q.2 = T)).map fun q => q.1
    let loads ← match choice.loads T with
      | some x => Except.ok x
      | none => .error .keyError
    let vs ← here.mapM fun q => do
      let row ← pyGet loads (choice.id q.1 q.2)
      pyGetInt row (truncRat (choice.duration q.1 q.2 - (left.getD q.1 []).getD q.2 0))
    .ok (setEntries m here vs) : Except PyErr (List (List Rat)))) := ⟨_, rfl⟩
  -- one type
  have hone : ∀ T (m : List (List Rat)), Rect n apps.length m → T ∈ typed.map (fun q => q.2) → ∃ m', F m T = .ok m' ∧ Rect n apps.length m' ∧
      ∀ h a x, h < n → apps[a]? = some x → ent m' h a = if (h, a) ∈ used ∧ x.info.type = T then some (V h a) else ent m h a := by
    intro T m hm hT
    obtain ⟨here, hhere⟩ : ∃ here, here = (typed.filter fun q => decide (q.2 = T)).map fun q => q.1 := ⟨_, rfl⟩
    have hin : ∀ h a x, apps[a]? = some x → ((h, a) ∈ here ↔ (h, a) ∈ used ∧ x.info.type = T) := by
      intro h a x hx
      rw [hhere, List.mem_map]
      constructor
      · rintro ⟨y, hy, e⟩
        obtain ⟨hy1, hy2⟩ := List.mem_filter.1 hy
        obtain ⟨b1, x', b2, b3⟩ := htm y hy1
        rw [e] at b1 b2
        rw [hx] at b2
        obtain rfl := Option.some.inj b2
        exact ⟨b1, by rw [← b3]; exact of_decide_eq_true hy2⟩
      · rintro ⟨h1, h2⟩
        exact ⟨_, List.mem_filter.2 ⟨htm' h a x h1 hx, by simpa using h2⟩, rfl⟩
    have hval : ∀ q ∈ here, ∃ L row, choice.loads T = some L ∧ pyGet L (choice.id q.1 q.2) = .ok row ∧ pyGetInt row (truncRat (choice.duration q.1 q.2 - (left.getD q.1 []).getD q.2 0)) = .ok (V q.1 q.2) := by
      rintro ⟨h, a⟩ hq
      have hq' : ∃ x, apps[a]? = some x ∧ (h, a) ∈ used ∧ x.info.type = T := by
        rw [hhere, List.mem_map] at hq
        obtain ⟨y, hy, e⟩ := hq
        obtain ⟨hy1, hy2⟩ := List.mem_filter.1 hy
        obtain ⟨b1, x', b2, b3⟩ := htm y hy1
        rw [e] at b1 b2
        exact ⟨x', b2, b1, by rw [← b3]; exact of_decide_eq_true hy2⟩
      obtain ⟨x, hx, hu, hT⟩ := hq'
      obtain ⟨hh, x', hx', hcond⟩ := (hmem h a).1 hu
      rw [hx] at hx'
      obtain rfl := Option.some.inj hx'
      obtain ⟨l, el⟩ := hl.ent hh (List.getElem?_eq_some_iff.1 hx).1
      have hv := hV h a x _ _ hh hx hcond.1 el
      unfold Appl.variableLoad at hv
      have hc : (true && (applOf owned choice h a x).varLoad) = true := hcond.2
      rw [if_pos hc] at hv
      have hrow : (applOf owned choice h a x).row = ((choice.loads T).getD []).getD (choice.id h a) [] := by rw [← hT]; rfl
      rw [hrow] at hv
      change pyGetInt _ (truncRat ((choice.duration h a : Rat) - l)) = _ at hv
      rw [← ent_getD (d := 0) el] at hv
      cases hL : choice.loads T with
      | none =>
        rw [hL] at hv
        simp only [Option.getD_none, List.getD_nil] at hv
        unfold pyGetInt pyGet at hv
        simp only [List.getElem?_nil] at hv
        split_ifs at hv
      | some L =>
        rw [hL, Option.getD_some] at hv
        cases hr : L[choice.id h a]? with
        | none =>
          rw [List.getD_eq_getElem?_getD, hr, Option.getD_none] at hv
          unfold pyGetInt pyGet at hv
          simp only [List.getElem?_nil] at hv
          split_ifs at hv
        | some row =>
          rw [List.getD_eq_getElem?_getD, hr, Option.getD_some] at hv
          exact ⟨L, row, rfl, by unfold pyGet; simp only; rw [hr], hv⟩
    have hne : here ≠ [] := by
      obtain ⟨y, hy, rfl⟩ := List.mem_map.1 hT
      intro c
      have : y.1 ∈ here := by rw [hhere]; exact List.mem_map.2 ⟨y, List.mem_filter.2 ⟨hy, by simp⟩, rfl⟩
      rw [c] at this
      cases this
    obtain ⟨q0, hq0⟩ := List.exists_mem_of_ne_nil _ hne
    obtain ⟨L, -, hL, -⟩ := hval q0 hq0
    obtain ⟨vs, evs, hvl, hvr⟩ := mapM_rel (fun q : Nat × Nat => (do
      let row ← pyGet L (choice.id q.1 q.2)
      pyGetInt row (truncRat (choice.duration q.1 q.2 - (left.getD q.1 []).getD q.2 0)) : Except PyErr Rat)) (fun q v => v = V q.1 q.2) here (by
      intro q hq
      obtain ⟨L', row, b1, b2, b3⟩ := hval q hq
      rw [hL] at b1
      obtain rfl := Option.some.inj b1
      exact ⟨V q.1 q.2, by simp only [bind, Except.bind, b2, b3], rfl⟩)
    have hhnd : here.Nodup := by
      rw [hhere]
      refine List.Nodup.sublist ?_ hnd
      rw [← htf]
      exact List.Sublist.map _ List.filter_sublist
    refine ⟨setEntries m here vs, ?_, rect_setEntries _ _ hm, ?_⟩
    · rw [hF]
      simp only [hL, ← hhere]
      simp only [bind, Except.bind] at evs ⊢
      rw [evs]
    · intro h a x hh hx
      have ha : a < apps.length := (List.getElem?_eq_some_iff.1 hx).1
      by_cases hq : (h, a) ∈ here
      · rw [if_pos ((hin h a x hx).1 hq)]
        obtain ⟨i, hi⟩ := List.mem_iff_getElem?.1 hq
        obtain ⟨v, hv1, hv2⟩ := hvr i _ hi
        rw [setEntries_hit here vs hm hhnd h a hh ha i v hi hv1, hv2]
      · rw [if_neg (fun c => hq ((hin h a x hx).2 c))]
        exact setEntries_miss here vs hm h a hh ha hq
  -- all types
  have hall : ∀ (types : List Str) (m : List (List Rat)), Rect n apps.length m → (∀ T ∈ types, T ∈ typed.map (fun q => q.2)) → ∃ m', types.foldlM F m = .ok m' ∧ Rect n apps.length m' ∧
      ∀ h a x, h < n → apps[a]? = some x → ent m' h a = if (h, a) ∈ used ∧ x.info.type ∈ types then some (V h a) else ent m h a := by
    intro types
    induction types with
    | nil => intro m hm _; exact ⟨m, rfl, hm, fun h a x _ _ => by simp⟩
    | cons T types ih =>
      intro m hm hT
      obtain ⟨m1, e1, hm1, hent1⟩ := hone T m hm (hT T List.mem_cons_self)
      obtain ⟨m2, e2, hm2, hent2⟩ := ih m1 hm1 fun T' hT' => hT T' (List.mem_cons_of_mem _ hT')
      refine ⟨m2, ?_, hm2, ?_⟩
      · simp only [List.foldlM_cons, bind, Except.bind, e1]
        exact e2
      · intro h a x hh hx
        rw [hent2 h a x hh hx, hent1 h a x hh hx]
        by_cases c1 : (h, a) ∈ used <;> by_cases c2 : x.info.type = T <;> by_cases c3 : x.info.type ∈ types <;> simp [c1, c2, c3] <;> simp_all
  obtain ⟨M, eM, hM, hent⟩ := hall (typed.map fun q => q.2).dedup (left.map fun r => r.map fun _ => (0 : Rat)) (rect_map hl _) (fun T hT => List.mem_dedup.1 hT)
  refine ⟨M, ?_, hM, ?_⟩
  · unfold variableLoadsOf
    simp only [← hused]
    simp only [bind, Except.bind] at et eM hF ⊢
    rw [et]
    simp only
    rw [← eM, hF]
    congr 1
  · intro h a hh ha
    have hx := List.getElem?_eq_getElem ha
    rw [hent h a _ hh hx]
    by_cases hq : (h, a) ∈ used
    · rw [if_pos ⟨hq, by rw [List.mem_dedup]; exact List.mem_map.2 ⟨_, htm' h a _ hq hx, rfl⟩⟩]
    · rw [if_neg (fun c => hq c.1)]
      obtain ⟨l, el⟩ := hl.ent hh ha
      obtain ⟨u, eu⟩ := hur.ent hh ha
      have hv := hV h a _ _ _ hh hx eu el
      unfold Appl.variableLoad at hv
      have hc : ¬ (u && (applOf owned choice h a apps[a]).varLoad) = true := fun c => by
        rw [Bool.and_eq_true] at c
        exact hq ((hmem h a).2 ⟨hh, _, hx, by rw [eu, c.1], c.2⟩)
      rw [if_neg hc] at hv
      rw [← Except.ok.inj hv]
      exact (ent_map left (fun _ => (0 : Rat)) h a).trans (by rw [el]; rfl)

theorem powersOf_spec (apps : List AppData) (choice : ProfileChoice) (owned : List (List Bool)) (left : List (List Rat)) (usage : List (List Bool)) (n : Nat) (ho : Rect n apps.length owned) (hl : Rect n apps.length left)
    (hur : Rect n apps.length usage) (W : Nat → Nat → Rat)
    (hW : ∀ h a x u l, h < n → apps[a]? = some x → ent usage h a = some u → ent left h a = some l → (applOf owned choice h a x).power u ⟨l, 0⟩ = .ok (W h a)) :
    ∃ M, powersOf apps choice owned left usage = .ok M ∧ Rect n apps.length M ∧ ∀ h a, h < n → a < apps.length → ent M h a = some (W h a) := by
  obtain ⟨V, hV⟩ : ∃ V : Nat → Nat → Rat, ∀ h a x u l, h < n → apps[a]? = some x → ent usage h a = some u → ent left h a = some l → (applOf owned choice h a x).variableLoad u ⟨l, 0⟩ = .ok (V h a) := by
    refine ⟨fun h a => match apps[a]?, ent usage h a, ent left h a with
      | some x, some u, some l => match (applOf owned choice h a x).variableLoad u ⟨l, 0⟩ with
        | .ok v => v
        | .error _ => 0
      | _, _, _ => 0, ?_⟩
    intro h a x u l hh hx hu hl
    simp only [hx, hu, hl]
    have := hW h a x u l hh hx hu hl
    unfold Appl.power at this
    cases hv : (applOf owned choice h a x).variableLoad u ⟨l, 0⟩ with
    | ok v => rfl
    | error err => simp only [hv, bind, Except.bind] at this; cases this
  obtain ⟨L, eL, hL, hLe⟩ := variableLoadsOf_spec apps choice owned left usage n hl hur V hV
  refine ⟨_, by unfold powersOf; simp only [bind, Except.bind, eL]; rfl, ⟨by simp [hur.1, hL.1, ho.1], ?_⟩, ?_⟩
  · intro q hq
    obtain ⟨⟨r1, r2, r3⟩, hr, rfl⟩ := List.mem_map.1 hq
    have h1 := List.of_mem_zip hr
    have h2 := List.of_mem_zip h1.2
    simp [hur.2 _ h1.1, ho.2 _ h2.1, hL.2 _ h2.2]
  · intro h a hh ha
    have hx := List.getElem?_eq_getElem ha
    obtain ⟨l, el⟩ := hl.ent hh ha
    obtain ⟨u, hu⟩ := hur.ent hh ha
    have hp := hW h a _ u l hh hx hu el
    have hv := hV h a _ u l hh hx hu el
    have hl := hLe h a hh ha
    obtain ⟨o, ho⟩ := ho.ent hh ha
    have ho' := ho
    unfold ent at hu hl ho ⊢
    obtain ⟨r1, a1, a2⟩ := Option.bind_eq_some_iff.1 hu
    obtain ⟨r2, b1, b2⟩ := Option.bind_eq_some_iff.1 ho
    obtain ⟨r3, c1, c2⟩ := Option.bind_eq_some_iff.1 hl
    rw [List.getElem?_map, zip_get (z := (r1, r2, r3)) a1 (zip_get (z := (r2, r3)) b1 c1), Option.map_some, Option.bind_some, List.getElem?_map, List.getElem?_zipIdx,
      zip_get (z := (u, o, V h a, apps[a])) a2 (zip_get (z := (o, V h a, apps[a])) b2 (zip_get (z := (V h a, apps[a])) c2 hx))]
    unfold Appl.power at hp
    simp only [hv, bind, Except.bind, pure, Except.pure] at hp
    rw [← Except.ok.inj hp]
    simp only [Option.map_some, Option.some.injEq, Nat.zero_add]
    have : (applOf owned choice h a apps[a]).owned = o := ent_getD ho'
    have hm : (applOf owned choice h a apps[a]).meanPower = apps[a].meanPower := rfl
    have hb : (applOf owned choice h a apps[a]).standby = apps[a].standby := rfl
    have hl : (applOf owned choice h a apps[a]).varLoad = choice.varLoad a := rfl
    rw [this, hm, hb, hl]

namespace OccSim

theorem usage_spec (s : OccSim) (hs : s.Shaped) : Rect s.hhTypes.length s.apps.length s.usage ∧ ∀ h a x, h < s.hhTypes.length → s.apps[a]? = some x → ent s.usage h a = some ((s.appl h a x).usage (s.st h a)) := by
  refine ⟨rect_zip _ hs.left hs.owned, ?_⟩
  intro h a x hh hx
  have ha : a < s.apps.length := (List.getElem?_eq_some_iff.1 hx).1
  obtain ⟨l, el⟩ := hs.left.ent hh ha
  obtain ⟨o, eo⟩ := hs.owned.ent hh ha
  unfold usage Appl.usage st appl applOf
  rw [ent_zip s.left s.owned _ el eo, ent_getD el, ent_getD eo]

theorem water_spec (s : OccSim) (hs : s.Shaped) : Rect s.hhTypes.length s.apps.length s.water ∧ ∀ h a x, h < s.hhTypes.length → s.apps[a]? = some x → ent s.water h a = some ((s.appl h a x).occWater (s.st h a)) := by
  constructor
  · refine ⟨by simp [water, hs.left.1], ?_⟩
    intro q hq
    unfold water at hq
    obtain ⟨r, hr, rfl⟩ := List.mem_map.1 hq
    simp [hs.left.2 r hr]
  · intro h a x hh hx
    have ha : a < s.apps.length := (List.getElem?_eq_some_iff.1 hx).1
    obtain ⟨l, el⟩ := hs.left.ent hh ha
    have el' := el
    unfold ent at el'
    obtain ⟨r, hr, hl⟩ := Option.bind_eq_some_iff.1 el'
    unfold water Appl.occWater st appl applOf
    rw [ent_getD el]
    unfold ent
    rw [List.getElem?_map, hr, Option.map_some, Option.bind_some, List.getElem?_map, zip_get (z := (l, x)) hl hx]
    rfl

theorem powers_spec (s : OccSim) (hs : s.Shaped) (W : Nat → Nat → Rat)
    (hW : ∀ h a x, h < s.hhTypes.length → s.apps[a]? = some x → (s.appl h a x).power ((s.appl h a x).usage (s.st h a)) (s.st h a) = .ok (W h a)) :
    ∃ M, s.powers = .ok M ∧ Rect s.hhTypes.length s.apps.length M ∧ ∀ h a, h < s.hhTypes.length → a < s.apps.length → ent M h a = some (W h a) := by
  obtain ⟨hur, hue⟩ := s.usage_spec hs
  refine powersOf_spec s.apps s.choice s.owned s.left s.usage s.hhTypes.length hs.owned hs.left hur W ?_
  intro h a x u l hh hx hu hl
  have := hW h a x hh hx
  rw [hue h a x hh hx] at hu
  rw [Option.some.inj hu] at this
  have el : (s.st h a).left = l := ent_getD hl
  rw [← this]
  unfold Appl.power Appl.variableLoad
  rw [el]
  rfl

end OccSim

end Demod
