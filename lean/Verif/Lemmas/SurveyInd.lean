import Verif.Spec.SurveyInd
import Verif.Lemmas.SurveySparse
import Verif.Lemmas.Individuals

/-! # Lemmas on the activities of the survey -/

namespace Demod

theorem lookup_cons (q : Str × SubVal) (g : Subgroup) (k : Str) : lookupA (q :: g) k = if q.1 = k then some q.2 else lookupA g k := by
  unfold lookupA
  rw [List.find?_cons]
  by_cases h : q.1 = k <;> simp [h]

theorem lookup_none (g : Subgroup) (k : Str) (h : k ∉ g.map (·.1)) : lookupA g k = none := by
  induction g with
  | nil => rfl
  | cons q g ih =>
    rw [List.map_cons, List.mem_cons, not_or] at h
    rw [lookup_cons, if_neg (Ne.symm h.1), ih h.2]

theorem lookup_mem (g : Subgroup) (k : Str) (v : SubVal) (h : lookupA g k = some v) : (k, v) ∈ g := by
  induction g with
  | nil => cases h
  | cons q g ih =>
    rw [lookup_cons] at h
    by_cases hk : q.1 = k
    · rw [if_pos hk, Option.some.injEq] at h
      rw [← hk, ← h]
      exact List.mem_cons_self
    · rw [if_neg hk] at h
      exact List.mem_cons_of_mem _ (ih h)

/-- The number that the argument becomes. -/
def numberFrom (o : Option SubVal) (d : Int) : Int :=
  match o with
  | none => d
  | some (.int v) => v
  | some (.list _) => 0

/-- The values that the argument becomes. -/
def valuesFrom (o : Option SubVal) (d : OneOf) : OneOf :=
  match o with
  | none => d
  | some v => oneOfVal v

theorem fold_personArg (g : Subgroup) (hg : PersonGroup g) (a0 : SubgroupArgs) :
    g.foldlM personArg a0 = .ok { a0 with
      residents := valuesFrom (lookupA g kNResidents) a0.residents
      weekday := valuesFrom (lookupA g kWeekday) a0.weekday
      type := numberFrom (lookupA g kHouseholdType) a0.type
      position := numberFrom (lookupA g kPosition) a0.position
      quarter := numberFrom (lookupA g kQuarter) a0.quarter } := by
  induction g generalizing a0 with
  | nil => rfl
  | cons q g ih =>
    obtain ⟨k, v⟩ := q
    have nd := hg.keys
    rw [List.map_cons, List.nodup_cons] at nd
    have hno := lookup_none g k nd.1
    have ih := ih ⟨nd.2, fun q hq => hg.known q (List.mem_cons_of_mem _ hq), fun q hq => hg.numbers q (List.mem_cons_of_mem _ hq)⟩
    have hk := hg.known (k, v) List.mem_cons_self
    have hv := hg.numbers (k, v) List.mem_cons_self
    simp only [List.mem_cons, List.not_mem_nil, or_false] at hk
    rw [List.foldlM_cons]
    simp only [lookup_cons]
    rcases hk with h | h | h | h | h <;> subst h
    · change (do let s ← Except.ok _; _ : Except PyErr _) = _
      simp only [bind, Except.bind]
      rw [ih, hno]
      rfl
    · change (do let s ← Except.ok _; _ : Except PyErr _) = _
      simp only [bind, Except.bind]
      rw [ih, hno]
      rfl
    all_goals
      obtain ⟨n, hn⟩ := hv (by dsimp only; decide) (by dsimp only; decide)
      simp only at hn
      subst hn
      change (do let s ← Except.ok _; _ : Except PyErr _) = _
      simp only [bind, Except.bind]
      rw [ih, hno]
      rfl

theorem personArgs_ok (g : Subgroup) (hg : PersonGroup g) : g.foldlM personArg {} = .ok (personArgs g) := by
  rw [fold_personArg g hg]
  have e1 : ∀ k, numberFrom (lookupA g k) 0 = numberOf g k := by
    intro k
    unfold numberFrom numberOf Subgroup.at
    cases lookupA g k with
    | none => rfl
    | some v => cases v <;> rfl
  have e2 : ∀ k, valuesFrom (lookupA g k) (.one 0) = valuesOf g k := by
    intro k
    unfold valuesFrom valuesOf Subgroup.at
    cases lookupA g k with
    | none => rfl
    | some v => cases v <;> rfl
  simp only [e1, e2]
  rfl

theorem setKey_keys (g : Subgroup) (k : Str) (v : SubVal) (nd : (g.map (·.1)).Nodup) : ((setKey g k v).map (·.1)).Nodup := by
  unfold setKey
  by_cases h : (lookupA g k).isSome = true
  · rw [if_pos h, List.map_map]
    have : ((fun q : Str × SubVal => q.1) ∘ fun q => if q.1 = k then (k, v) else q) = fun q => q.1 := by
      funext q
      simp only [Function.comp]
      by_cases hq : q.1 = k
      · rw [if_pos hq, hq]
      · rw [if_neg hq]
    rw [this]
    exact nd
  · rw [if_neg h, List.map_append, List.nodup_append]
    refine ⟨nd, by simp, ?_⟩
    intro a ha b hb
    simp only [List.map_cons, List.map_nil, List.mem_singleton] at hb
    rintro rfl
    rw [hb] at ha
    rw [List.mem_map] at ha
    obtain ⟨q, hq, hqk⟩ := ha
    refine h ?_
    clear h nd
    induction g with
    | nil => cases hq
    | cons x g ih =>
      rw [lookup_cons]
      by_cases hx : x.1 = k
      · rw [if_pos hx]; rfl
      · rw [if_neg hx]
        rcases List.mem_cons.1 hq with rfl | hq
        · exact absurd hqk hx
        · exact ih hq

theorem mem_setKey (g : Subgroup) (k : Str) (v : SubVal) (q : Str × SubVal) (h : q ∈ setKey g k v) : q = (k, v) ∨ q ∈ g := by
  unfold setKey at h
  split at h
  · rw [List.mem_map] at h
    obtain ⟨x, hx, rfl⟩ := h
    split
    · exact .inl rfl
    · exact .inr hx
  · rw [List.mem_append, List.mem_singleton] at h
    exact h.symm

theorem setKey_group (g : Subgroup) (hg : PersonGroup g) (k : Str) (v : SubVal) (hk : k = kWeekday ∨ k = kQuarter ∧ ∃ n, v = .int n) : PersonGroup (setKey g k v) where
  keys := setKey_keys g k v hg.keys
  known := by
    intro q hq
    rcases mem_setKey g k v q hq with rfl | hq
    · rcases hk with rfl | ⟨rfl, -⟩ <;> simp
    · exact hg.known q hq
  numbers := by
    intro q hq h1 h2
    rcases mem_setKey g k v q hq with rfl | hq
    · rcases hk with rfl | ⟨-, h⟩
      · exact absurd rfl h2
      · exact h
    · exact hg.numbers q hq h1 h2

theorem popKey_group (g : Subgroup) (hg : PersonGroup g) (k : Str) : PersonGroup (popKey g k) where
  keys := hg.keys.sublist (List.filter_sublist.map _)
  known := fun q hq => hg.known q (List.mem_of_mem_filter hq)
  numbers := fun q hq => hg.numbers q (List.mem_of_mem_filter hq)

theorem numberOf_set (g : Subgroup) (k k' : Str) (v : Int) : numberOf (setKey g k (.int v)) k' = if k' = k then v else numberOf g k' := by
  unfold numberOf Subgroup.at
  rw [lookup_setKey]
  by_cases h : k' = k <;> simp [h]

theorem numberOf_ne (g : Subgroup) (k k' : Str) (v : SubVal) (h : k' ≠ k) : numberOf (setKey g k v) k' = numberOf g k' := by
  unfold numberOf Subgroup.at
  rw [lookup_setKey, if_neg h]

theorem numberOf_pop (g : Subgroup) (k k' : Str) : numberOf (popKey g k) k' = if k' = k then 0 else numberOf g k' := by
  unfold numberOf Subgroup.at
  rw [lookup_popKey]
  by_cases h : k' = k <;> simp [h]

theorem valuesOf_set (g : Subgroup) (k k' : Str) (v : SubVal) : valuesOf (setKey g k v) k' = if k' = k then oneOfVal v else valuesOf g k' := by
  unfold valuesOf Subgroup.at
  rw [lookup_setKey]
  by_cases h : k' = k
  · rw [if_pos h, if_pos h]; cases v <;> rfl
  · rw [if_neg h, if_neg h]

theorem valuesOf_pop (g : Subgroup) (k k' : Str) : valuesOf (popKey g k) k' = if k' = k then .one 0 else valuesOf g k' := by
  unfold valuesOf Subgroup.at
  rw [lookup_popKey]
  by_cases h : k' = k <;> simp [h]

theorem addTime_args (f : DayFlags) (g : Subgroup) (hg : PersonGroup g) (t : Int) (g' : Subgroup) (h : addTime g t f.weekEndsDays f.weekSatSun f.sevenDays f.quarters = .ok g') :
    PersonGroup g' ∧ personArgs g' = personDay f (personArgs g) t := by
  unfold addTime at h
  by_cases hc : (if f.sevenDays then 1 else 0) + (if f.weekEndsDays then 1 else 0) + (if f.weekSatSun then 1 else 0) > 1
  · rw [if_pos hc] at h
    cases h
  · rw [if_neg hc] at h
    obtain ⟨w, hw⟩ : ∃ w : Subgroup, w = (if f.weekEndsDays then
        if isoWeekday t ≤ 5 then setKey g kWeekday (.list [1, 2, 3, 4, 5]) else setKey g kWeekday (.list [6, 7])
      else if f.weekSatSun then
        if isoWeekday t ≤ 5 then setKey g kWeekday (.list [1, 2, 3, 4, 5]) else setKey g kWeekday (.int (isoWeekday t))
      else if f.sevenDays then setKey g kWeekday (.int (isoWeekday t))
      else popKey g kWeekday) := ⟨_, rfl⟩
    simp only at h
    rw [← hw] at h
    have hiso : (isoWeekday t : Int) = t / DAY % 7 + 1 := by
      unfold isoWeekday dayNumber
      omega
    have h5 : isoWeekday t ≤ 5 ↔ t / DAY % 7 < 5 := by omega
    obtain ⟨wd, hwd⟩ : ∃ wd, wd = (personDay f (personArgs g) t).weekday := ⟨_, rfl⟩
    have hd : PersonGroup w ∧ valuesOf w kWeekday = wd ∧ ∀ k, k ≠ kWeekday → valuesOf w k = valuesOf g k ∧ numberOf w k = numberOf g k := by
      rw [hwd]
      unfold personDay
      simp only
      rw [hw]
      have hs : ∀ v, PersonGroup (setKey g kWeekday v) ∧ valuesOf (setKey g kWeekday v) kWeekday = oneOfVal v ∧ ∀ k, k ≠ kWeekday → valuesOf (setKey g kWeekday v) k = valuesOf g k ∧ numberOf (setKey g kWeekday v) k = numberOf g k := by
        intro v
        refine ⟨setKey_group g hg _ _ (.inl rfl), by rw [valuesOf_set, if_pos rfl], fun k hk => ⟨by rw [valuesOf_set, if_neg hk], numberOf_ne _ _ _ _ hk⟩⟩
      by_cases c1 : f.weekEndsDays = true
      · simp only [if_pos c1, h5]
        split <;> exact hs _
      · simp only [if_neg c1, h5]
        by_cases c2 : f.weekSatSun = true
        · simp only [if_pos c2]
          split
          · exact hs _
          · rw [← hiso]; exact hs _
        · simp only [if_neg c2]
          by_cases c3 : f.sevenDays = true
          · simp only [if_pos c3]
            rw [← hiso]; exact hs _
          · simp only [if_neg c3]
            exact ⟨popKey_group g hg _, by rw [valuesOf_pop, if_pos rfl], fun k hk => ⟨by rw [valuesOf_pop, if_neg hk], by rw [numberOf_pop, if_neg hk]⟩⟩
    obtain ⟨d1, d2, d3⟩ := hd
    obtain ⟨e1, e2⟩ := d3 kNResidents (by decide)
    obtain ⟨-, e3⟩ := d3 kHouseholdType (by decide)
    obtain ⟨-, e4⟩ := d3 kPosition (by decide)
    rw [show personDay f (personArgs g) t = { personArgs g with weekday := wd, quarter := if f.quarters then (((dateAt t).month - 1) / 3 + 1 : Nat) else 0 } by rw [hwd]; rfl]
    rw [Except.ok.injEq] at h
    by_cases hq : f.quarters = true
    · rw [if_pos hq] at h
      subst h
      refine ⟨setKey_group w d1 _ _ (.inr ⟨rfl, _, rfl⟩), ?_⟩
      unfold personArgs
      rw [if_pos hq]
      simp only [valuesOf_set, numberOf_set, if_true]
      rw [if_neg (show kWeekday ≠ kQuarter by decide), if_neg (show kNResidents ≠ kQuarter by decide), if_neg (show kHouseholdType ≠ kQuarter by decide), if_neg (show kPosition ≠ kQuarter by decide), e1, d2, e3, e4]
    · rw [if_neg hq] at h
      subst h
      refine ⟨popKey_group w d1 _, ?_⟩
      unfold personArgs
      rw [if_neg hq]
      simp only [valuesOf_pop, numberOf_pop, if_true]
      rw [if_neg (show kWeekday ≠ kQuarter by decide), if_neg (show kNResidents ≠ kQuarter by decide), if_neg (show kHouseholdType ≠ kQuarter by decide), if_neg (show kPosition ≠ kQuarter by decide), e1, d2, e3, e4]

theorem mem_intPut (d : List (Int × Str)) (nd : (d.map (·.1)).Nodup) (k : Int) (v : Str) (k' : Int) (a : Str) :
    (k', a) ∈ intPut d k v ↔ (k' = k ∧ a = v) ∨ (k' ≠ k ∧ (k', a) ∈ d) := by
  induction d with
  | nil => simp [intPut]
  | cons q d ih =>
    obtain ⟨k1, v1⟩ := q
    rw [List.map_cons, List.nodup_cons] at nd
    have ih := ih nd.2
    unfold intPut
    by_cases h : k1 = k
    · subst h
      rw [if_pos rfl, List.mem_cons, List.mem_cons, Prod.mk.injEq, Prod.mk.injEq]
      have hno : (k1, a) ∉ d := fun hm => nd.1 (List.mem_map.2 ⟨_, hm, rfl⟩)
      constructor
      · rintro (h | h)
        · exact .inl h
        · refine .inr ⟨?_, .inr h⟩
          rintro rfl
          exact hno h
      · rintro (h | ⟨h, h' | h'⟩)
        · exact .inl h
        · exact absurd h'.1 h
        · exact .inr h'
    · rw [if_neg h, List.mem_cons, List.mem_cons, Prod.mk.injEq, ih]
      constructor
      · rintro (⟨rfl, rfl⟩ | h' | h')
        · exact .inr ⟨h, .inl ⟨rfl, rfl⟩⟩
        · exact .inl h'
        · exact .inr ⟨h'.1, .inr h'.2⟩
      · rintro (h' | ⟨h1, h' | h'⟩)
        · exact .inr (.inl h')
        · exact .inl h'
        · exact .inr (.inr ⟨h1, h'⟩)

theorem nodup_intPut (d : List (Int × Str)) (nd : (d.map (·.1)).Nodup) (k : Int) (v : Str) : ((intPut d k v).map (·.1)).Nodup := by
  induction d with
  | nil => simp [intPut]
  | cons q d ih =>
    obtain ⟨k1, v1⟩ := q
    have nd' := nd
    rw [List.map_cons, List.nodup_cons] at nd
    unfold intPut
    by_cases h : k1 = k
    · subst h
      rw [if_pos rfl]
      exact nd'
    · rw [if_neg h, List.map_cons, List.nodup_cons]
      refine ⟨?_, ih nd.2⟩
      intro hm
      obtain ⟨⟨k2, v2⟩, h1, h2⟩ := List.mem_map.1 hm
      simp only at h2
      subst h2
      rcases (mem_intPut d nd.2 k v k2 v2).1 h1 with ⟨h', -⟩ | ⟨-, h'⟩
      · exact h h'
      · exact nd.1 (List.mem_map.2 ⟨_, h', rfl⟩)

theorem nodup_values (l : List (Int × Str)) (nd : (l.map (·.1)).Nodup) (Q : Str → Bool) (h : ∀ k k' a, (k, a) ∈ l → (k', a) ∈ l → Q a = true → k = k') : ((l.map (·.2)).filter Q).Nodup := by
  induction l with
  | nil => simp
  | cons q l ih =>
    obtain ⟨k, v⟩ := q
    rw [List.map_cons, List.nodup_cons] at nd
    have ih := ih nd.2 fun k k' a h1 h2 => h k k' a (List.mem_cons_of_mem _ h1) (List.mem_cons_of_mem _ h2)
    rw [List.map_cons, List.filter_cons]
    simp only
    split
    · rename_i hq
      rw [List.nodup_cons]
      refine ⟨?_, ih⟩
      intro hm
      obtain ⟨⟨k', v'⟩, h1, h2⟩ := List.mem_map.1 (List.mem_of_mem_filter hm)
      simp only at h2
      subst h2
      have := h k k' v' List.mem_cons_self (List.mem_cons_of_mem _ h1) hq
      exact nd.1 (List.mem_map.2 ⟨_, h1, this.symm⟩)
    · exact ih

theorem labels_shape (P S : Diaries Int) (occ : Diaries Bool) (dict : List (Int × Str)) (name : Int → Str) (hP : 0 < P.nP) (hT : 0 < P.nT) (hn : Names P dict name) (C : Diaries Nat) (labels : List Str)
    (e : activityStates true true P S occ dict = .ok (C, labels)) :
    ∃ L : List Str, labels = L ++ (((intPut dict 0 "away".toList).map (·.2)).filter fun a => decide (a ∉ L)) ∧ L.Nodup ∧ ∀ a, a ∈ L ↔ ∃ p t, p < P.nP ∧ t < P.nT ∧ activityAt true P occ name p t = a := by
  obtain ⟨C', labels', e', cP, cT, hlab, -⟩ := C95_labels_partial true true P S occ dict name hP hT hn
  rw [e] at e'
  obtain ⟨rfl, rfl⟩ := Prod.mk.inj (Except.ok.inj e')
  unfold activityStates at e
  simp only [if_true, bind, Except.bind] at e
  split at e
  · cases e
  · split at e
    · cases e
    · split at e
      · cases e
      · rename_i r1 _ _ r2 _ _ r3 h3
        obtain ⟨A, hA⟩ : ∃ A : Diaries Str, A = ⟨P.nP, P.nT, fun p t =>
          if (renameDash r1.2).getD (r1.1.at' p t) [] = "other".toList ∧ (renameDash r2.2).getD (r2.1.at' p t) [] ≠ "other".toList then (renameDash r2.2).getD (r2.1.at' p t) []
          else (renameDash r1.2).getD (r1.1.at' p t) []⟩ := ⟨_, rfl⟩
        rw [← hA] at h3
        have hA1 : A.nP = P.nP := by rw [hA]
        have hA2 : A.nT = P.nT := by rw [hA]
        obtain ⟨C3, L, e3, -, -, hl3, -, nd3, hm3⟩ := convertArray_spec strLt strLt strLt_total strLt_total some A (by omega) (by omega) (fun p t _ _ => ⟨_, rfl⟩)
        rw [h3] at e3
        obtain rfl := Except.ok.inj e3
        simp only [Except.ok.injEq, Prod.mk.injEq] at e
        obtain ⟨rfl, rfl⟩ := e
        refine ⟨L, rfl, nd3, fun a => ?_⟩
        rw [hm3, hA1, hA2]
        have key : ∀ p t, p < P.nP → t < P.nT → A.at' p t = activityAt true P occ name p t := by
          intro p t hp ht
          have h1 := hlab p t hp ht
          have h2 := hl3 p t (by omega) (by omega)
          rw [List.getElem?_append_left (List.getElem?_eq_some_iff.1 h2).1, h2] at h1
          exact Option.some.inj h1
        constructor
        · rintro ⟨p, t, hp, ht, h⟩
          exact ⟨p, t, hp, ht, by rw [← key p t hp ht]; exact Option.some.inj h⟩
        · rintro ⟨p, t, hp, ht, h⟩
          exact ⟨p, t, hp, ht, by rw [key p t hp ht, h]⟩

/-- What an activity of a diary is for the parser. -/
theorem does_iff (V : SurveyRaw) (dict : List (Int × Str)) (hD : ActivityDict V dict) (occ : Diaries Bool) (hocc : ∀ p, p < V.tables.rows.length → ∀ t < 144, (occ.at' p t = true ↔ V.AtHome p t)) (p t : Nat)
    (hp : p < V.tables.rows.length) (ht : t < 144) (b : Str) : V.Does dict p t b ↔ activityAt true V.primary occ (fun k => (intGet dict k).getD []) p t = b := by
  have ho := hocc p hp t ht
  obtain ⟨a, ha⟩ := hD.known p t hp ht
  have hg := intGet_of_mem dict hD.codes _ _ ha
  unfold SurveyRaw.Does activityAt Coded
  by_cases h : V.AtHome p t
  · have h1 := ho.2 h
    by_cases hz : V.primary.at' p t = 0
    · rw [if_pos ⟨rfl, .inr hz⟩]
      constructor
      · rintro (⟨h', -⟩ | ⟨-, ⟨-, h'⟩ | ⟨h', -⟩⟩)
        · exact absurd h h'
        · exact h'.symm
        · exact absurd hz h'
      · exact fun e => .inr ⟨h, .inl ⟨hz, e.symm⟩⟩
    · rw [if_neg (by rw [h1]; simp [hz])]
      beta_reduce
      rw [hg, Option.getD_some]
      unfold shownActivity
      rw [if_neg (hD.noDash _ ha)]
      constructor
      · rintro (⟨h', -⟩ | ⟨-, ⟨h', -⟩ | ⟨-, h'⟩⟩)
        · exact absurd h h'
        · exact absurd h' hz
        · have := intGet_of_mem dict hD.codes _ _ h'
          rw [hg] at this
          exact Option.some.inj this
      · rintro rfl
        exact .inr ⟨h, .inr ⟨hz, ha⟩⟩
  · have h1 : occ.at' p t = false := by
      rw [← Bool.not_eq_true, ho]
      exact h
    rw [if_pos ⟨rfl, .inl h1⟩]
    constructor
    · rintro (⟨-, h'⟩ | ⟨h', -⟩)
      · exact h'.symm
      · exact absurd h' h
    · exact fun e => .inl ⟨h, e.symm⟩

/-- The slots of which matrix `t` has the changes. -/
def slotsOf (t : Nat) : Nat × Nat := if t = 0 then (142, 143) else (t - 1, t)

/-- The data of a subgroup of persons. -/
structure PersonFacts (V : SurveyRaw) (dict : List (Int × Str)) (a : SubgroupArgs) (r : Tpms × List Str × List Rat) : Prop where
  nodup : r.2.1.Nodup
  mem : ∀ b, b ∈ r.2.1 ↔ ∃ k, Coded dict k b
  rows : r.1.rows = r.2.1.length
  cols : r.1.cols = r.2.1.length
  size : r.1.mats.length = 144
  tpms : IsTpms r.2.1.length r.1.mats
  dist : IsDist r.2.2
  initialSize : r.2.2.length = r.2.1.length
  starts : ∀ (i : Nat) b, r.2.1[i]? = some b → r.2.2[i]? = some (({p | V.Diary a p ∧ V.Does dict p 0 b}.ncard : Rat) / ({p | V.Diary a p}.ncard : Rat))
  matrix : ∀ t < 144, ∀ (i j : Nat) b c, r.2.1[i]? = some b → r.2.1[j]? = some c → (rowOf r.1.mats t i)[j]? = some
    (if {p | V.Diary a p ∧ V.Does dict p (slotsOf t).1 b}.ncard = 0 then (if c = b then 1 else 0)
      else ({p | V.Diary a p ∧ V.Does dict p (slotsOf t).1 b ∧ V.Does dict p (slotsOf t).2 c}.ncard : Rat) / ({p | V.Diary a p ∧ V.Does dict p (slotsOf t).1 b}.ncard : Rat))

theorem person_facts (V : SurveyRaw) (hV : ValidSurvey V) (dict : List (Int × Str)) (hD : ActivityDict V dict) (g : Subgroup) (hg : PersonGroup g) (hU : UsablePersons V dict (personArgs g)) :
    ∃ r, surveyTpm V dict g = .ok r ∧ PersonFacts V dict (personArgs g) r := by
  obtain ⟨a, ha⟩ : ∃ a, a = personArgs g := ⟨_, rfl⟩
  rw [← ha] at hU ⊢
  obtain ⟨nP1, nP2⟩ := hV.nP
  obtain ⟨nT1, nT2⟩ := hV.nT
  obtain ⟨p0, r0, hp0, hr0⟩ := hU.some
  have hn0 : 0 < V.tables.rows.length := by
    have := (List.getElem?_eq_some_iff.1 hp0).1
    omega
  obtain ⟨occ, o1, o2, o3, hocc⟩ := occ_home V hV hn0
  obtain ⟨mask, m1, m2, m3⟩ := C98_mask_partial V.tables a hV.missing hV.persons hU.accepted (.inl hU.filters)
  obtain ⟨rows, hrows⟩ : ∃ rows, rows = maskRows mask := ⟨_, rfl⟩
  have nd : rows.Nodup := hrows ▸ maskRows_nodup mask
  have hr : ∀ p, p ∈ rows ↔ V.Diary a p := by
    intro p
    rw [hrows, mem_maskRows]
    constructor
    · intro h
      have hlt : p < V.tables.rows.length := by rw [← m2]; exact (List.getElem?_eq_some_iff.1 h).1
      exact ⟨_, List.getElem?_eq_getElem hlt, (m3 p _ (List.getElem?_eq_getElem hlt)).1 h⟩
    · rintro ⟨r, r1, r2⟩
      exact (m3 p r r1).2 r2
  have hlt : ∀ p ∈ rows, p < V.tables.rows.length := by
    intro p hp
    obtain ⟨r, h1, -⟩ := (hr p).1 hp
    exact (List.getElem?_eq_some_iff.1 h1).1
  have hpos : 0 < rows.length := List.length_pos_of_mem ((hr p0).2 ⟨r0, hp0, hr0⟩)
  have hget : ∀ p, p < rows.length → rows.getD p 0 ∈ rows := by
    intro p hp
    rw [List.getD_eq_getElem?_getD, List.getElem?_eq_getElem hp, Option.getD_some]
    exact List.getElem_mem _
  obtain ⟨name, hname⟩ : ∃ name : Int → Str, name = fun k => (intGet dict k).getD [] := ⟨_, rfl⟩
  have hN : Names (selectRows rows V.primary) dict name := by
    refine ⟨hD.codes, fun p t hp ht => ?_⟩
    obtain ⟨b, hb⟩ := hD.known _ t (hlt _ (hget p hp)) (by have h : t < V.primary.nT := ht; omega)
    change (V.primary.at' (rows.getD p 0) t, name (V.primary.at' (rows.getD p 0) t)) ∈ dict
    rw [hname]
    simp only
    rw [intGet_of_mem dict hD.codes _ _ hb]
    exact hb
  have hdoes : ∀ p, p < rows.length → ∀ t < 144, ∀ b, (activityAt true (selectRows rows V.primary) (selectRows rows occ) name p t = b ↔ V.Does dict (rows.getD p 0) t b) := by
    intro p hp t ht b
    rw [does_iff V dict hD occ hocc _ t (hlt _ (hget p hp)) ht b, hname]
    rfl
  have hT : 0 < (selectRows rows V.primary).nT := by change 0 < V.primary.nT; omega
  obtain ⟨tpm, labels, initial, e, ip, hi, hm⟩ := C95_tpm true .last (by decide) (selectRows rows V.primary) (selectRows rows V.secondary) (selectRows rows occ) dict name hpos hT hN
  have hst : ∃ C, activityStates true true (selectRows rows V.primary) (selectRows rows V.secondary) (selectRows rows occ) dict = .ok (C, labels) := by
    unfold tpmsActivity at e
    simp only [bind, Except.bind] at e
    split at e
    · cases e
    · rename_i r h
      split at e
      · cases e
      · simp only [Except.ok.injEq, Prod.mk.injEq] at e
        exact ⟨r.1, by rw [h, ← e.2.1]⟩
  obtain ⟨C, hC⟩ := hst
  obtain ⟨L, hL, ndL, memL⟩ := labels_shape _ _ _ dict name hpos hT hN C labels hC
  have memL' : ∀ b, b ∈ L ↔ ∃ p t, V.Diary a p ∧ t < 144 ∧ V.Does dict p t b := by
    intro b
    rw [memL]
    constructor
    · rintro ⟨p, t, hp, ht, h⟩
      have ht : t < 144 := by have h : t < V.primary.nT := ht; omega
      exact ⟨_, t, (hr _).1 (hget p hp), ht, (hdoes p hp t ht b).1 h⟩
    · rintro ⟨p, t, hp, ht, h⟩
      obtain ⟨k, hk, hk'⟩ := List.getElem_of_mem ((hr p).2 hp)
      refine ⟨k, t, hk, by change t < V.primary.nT; omega, (hdoes k hk t ht b).2 ?_⟩
      rw [List.getD_eq_getElem?_getD, List.getElem?_eq_getElem hk, Option.getD_some, hk']
      exact h
  have hcoded : ∀ k b, (k, b) ∈ intPut dict 0 "away".toList ↔ Coded dict k b := fun k b => mem_intPut dict hD.codes 0 _ k b
  have hdc : ∀ p t b, V.Does dict p t b → ∃ k, Coded dict k b := by
    rintro p t b (⟨-, h⟩ | ⟨-, h⟩)
    · exact ⟨0, .inl ⟨rfl, h⟩⟩
    · exact ⟨_, h⟩
  have hmemlab : ∀ b, b ∈ labels ↔ ∃ k, Coded dict k b := by
    intro b
    rw [hL, List.mem_append, List.mem_filter, List.mem_map]
    constructor
    · rintro (h | ⟨⟨⟨k, b'⟩, h, rfl⟩, -⟩)
      · obtain ⟨p, t, -, -, h⟩ := (memL' b).1 h
        exact hdc p t b h
      · exact ⟨k, (hcoded k b').1 h⟩
    · rintro ⟨k, h⟩
      by_cases hb : b ∈ L
      · exact .inl hb
      · exact .inr ⟨⟨(k, b), (hcoded k b).2 h, rfl⟩, by simpa using hb⟩
  have hndlab : labels.Nodup := by
    rw [hL, List.nodup_append]
    refine ⟨ndL, nodup_values _ (nodup_intPut dict hD.codes _ _) _ ?_, ?_⟩
    · intro k k' b h1 h2 hb
      by_contra hne
      obtain ⟨p, t, q1, q2, q3⟩ := hU.recorded b k k' ((hcoded k b).1 h1) ((hcoded k' b).1 h2) hne
      have : b ∉ L := by simpa using hb
      exact this ((memL' b).2 ⟨p, t, q1, q2, q3⟩)
    · intro x hx y hy
      have := (List.mem_filter.1 hy).2
      rintro rfl
      simp only [decide_eq_true_eq] at this
      exact this hx
  -- counting diaries
  classical
  have hcount : ∀ (Q : Nat → Prop), ((List.range rows.length).countP fun p => decide (Q (rows.getD p 0))) = {p | V.Diary a p ∧ Q p}.ncard := by
    intro Q
    rw [ncard_filter rows nd (fun p => decide (Q p)) _ (by
      intro p
      rw [Set.mem_ofPred_eq, hr, decide_eq_true_eq]), List.countP_eq_length_filter, filter_range_getD rows 0 fun p => decide (Q p)]
  have hall : rows.length = {p | V.Diary a p}.ncard := by
    rw [ncard_filter rows nd (fun _ => true) _ (by
      intro p
      rw [Set.mem_ofPred_eq, hr]
      simp)]
    simp
  have hidx : ∀ (i : Nat) b, labels[i]? = some b → labels.idxOf b = i ∧ b ∈ labels ∧ i < labels.length := by
    intro i b h
    obtain ⟨hi, rfl⟩ := List.getElem?_eq_some_iff.1 h
    exact ⟨hndlab.idxOf_getElem i hi, List.getElem_mem _, hi⟩
  have hlen : (selectRows rows V.primary).nP = rows.length := rfl
  have hnT : (selectRows rows V.primary).nT = 144 := nT1
  refine ⟨(⟨labels.length, labels.length, (List.range V.primary.nT).map fun t => (List.range labels.length).map fun i => (List.range labels.length).map fun j => tpm t i j⟩, labels, (List.range labels.length).map initial), ?_, ?_⟩
  · unfold surveyTpm
    simp only [o1, personArgs_ok g hg, ← ha, m1, ← hrows, e, bind, Except.bind]
  · refine ⟨hndlab, hmemlab, rfl, rfl, by simp [nT1], ⟨?_, ?_⟩, ?_, by simp, ?_, ?_⟩
    · simp [nT1]
    · intro mat hmat
      obtain ⟨t, ht, rfl⟩ := List.mem_map.1 hmat
      rw [List.mem_range] at ht
      refine ⟨by simp, fun row hrow => ?_⟩
      obtain ⟨i, hi', rfl⟩ := List.mem_map.1 hrow
      rw [List.mem_range] at hi'
      obtain ⟨q1, q2⟩ := (hm t ht).1 i hi'
      refine ⟨by simp, ?_, q2⟩
      intro x hx
      obtain ⟨j, -, rfl⟩ := List.mem_map.1 hx
      exact q1 j
    · refine ⟨?_, ip.2⟩
      intro x hx
      obtain ⟨j, -, rfl⟩ := List.mem_map.1 hx
      exact ip.1 j
    · intro i b hb
      obtain ⟨h1, h2, h3⟩ := hidx i b hb
      change ((List.range labels.length).map initial)[i]? = _
      rw [List.getElem?_map, List.getElem?_range h3, Option.map_some, ← h1, hi b h2, hlen, ← hcount, ← hall]
      congr 3
      refine List.countP_congr fun p hp => ?_
      rw [List.mem_range] at hp
      simp only [decide_eq_true_eq]
      exact hdoes p hp 0 (by omega) b
    · intro t ht i j b c hb hc
      obtain ⟨i1, i2, i3⟩ := hidx i b hb
      obtain ⟨j1, j2, j3⟩ := hidx j c hc
      have hs : ∃ now before, now = (slotsOf t).2 ∧ before = (slotsOf t).1 ∧ now = (if t = 0 ∧ FirstTpm.last = .last then 144 - 1 else t) ∧ before = (if now = 0 then 144 - 1 else now - 1) ∧ now < 144 ∧ before < 144 := by
        refine ⟨_, _, rfl, rfl, ?_⟩
        unfold slotsOf
        by_cases h0 : t = 0
        · simp [h0]
        · simp [h0]; omega
      obtain ⟨now, before, s1, s2, s3, s4, s5, s6⟩ := hs
      have := (hm t (by rw [hnT]; exact ht)).2 now before (by rw [hnT]; exact s3) (by rw [hnT]; exact s4) b c i2 j2
      have c1 : ((List.range (selectRows rows V.primary).nP).countP fun p => decide (activityAt true (selectRows rows V.primary) (selectRows rows occ) name p before = b)) = {p | V.Diary a p ∧ V.Does dict p before b}.ncard := by
        rw [← hcount]
        refine List.countP_congr fun p hp => ?_
        rw [List.mem_range] at hp
        simp only [decide_eq_true_eq]
        exact hdoes p hp before s6 b
      have c2 : ((List.range (selectRows rows V.primary).nP).countP fun p => decide (activityAt true (selectRows rows V.primary) (selectRows rows occ) name p before = b ∧ activityAt true (selectRows rows V.primary) (selectRows rows occ) name p now = c)) =
          {p | V.Diary a p ∧ V.Does dict p before b ∧ V.Does dict p now c}.ncard := by
        rw [← hcount]
        refine List.countP_congr fun p hp => ?_
        rw [List.mem_range] at hp
        simp only [decide_eq_true_eq]
        rw [hdoes p hp before s6 b, hdoes p hp now s5 c]
      rw [c1, c2, i1, j1] at this
      rw [← s1, ← s2, ← this]
      unfold rowOf
      simp only
      rw [List.getD_eq_getElem?_getD, List.getD_eq_getElem?_getD, List.getElem?_map, List.getElem?_range (by omega), Option.map_some, Option.getD_some, List.getElem?_map, List.getElem?_range i3, Option.map_some, Option.getD_some,
        List.getElem?_map, List.getElem?_range j3, Option.map_some]

theorem PersonFacts.valid {V : SurveyRaw} {dict : List (Int × Str)} {a : SubgroupArgs} {r : Tpms × List Str × List Rat} (F : PersonFacts V dict a r) (labels : List Str) (hl : ∀ b, b ∈ labels ↔ ∃ k, Coded dict k b) :
    ValidLoad labels r := ⟨F.nodup, fun b => by rw [F.mem, hl], F.rows, F.cols, F.tpms, F.dist, F.initialSize⟩

end Demod
