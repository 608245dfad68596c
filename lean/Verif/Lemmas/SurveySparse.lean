import Verif.Spec.SurveySparse
import Verif.Props.Survey
import Verif.Props.SurveyTpm
import Verif.Props.SurveyMask
import Verif.Props.SurveyStats
import Verif.Lemmas.SparseAct

/-! # Lemmas on the sparse matrices of the survey -/

namespace Demod

theorem ncard_filter {α : Type} [DecidableEq α] (l : List α) (nd : l.Nodup) (Q : α → Bool) (S : Set α) (h : ∀ p, p ∈ S ↔ p ∈ l ∧ Q p = true) : S.ncard = (l.filter Q).length := by
  have : S = ↑((l.filter Q).toFinset) := by
    ext p
    rw [h, Finset.mem_coe, List.mem_toFinset, List.mem_filter]
  rw [this, Set.ncard_coe_finset, List.toFinset_card_of_nodup (nd.filter _)]

theorem range_getD {α : Type} (l : List α) (z : α) : (List.range l.length).map (fun k => l.getD k z) = l := by
  apply List.ext_getElem (by simp)
  intro i h1 h2
  simp [List.getD_eq_getElem?_getD, List.getElem?_eq_getElem h2]

theorem filter_range_getD {α : Type} (l : List α) (z : α) (Q : α → Bool) : ((List.range l.length).filter fun k => Q (l.getD k z)).length = (l.filter Q).length := by
  conv_rhs => rw [← range_getD l z, List.filter_map, List.length_map]
  rfl

theorem natLt_total : StrictTotal natLt := ⟨by simp [natLt], by simp [natLt]; omega, by simp [natLt]; omega⟩

theorem mem_maskRows (mask : List Bool) (k : Nat) : k ∈ maskRows mask ↔ mask[k]? = some true := by
  unfold maskRows
  rw [List.mem_filter, List.mem_range, List.getD_eq_getElem?_getD]
  constructor
  · rintro ⟨h1, h2⟩
    rw [List.getElem?_eq_getElem h1] at h2 ⊢
    simpa using h2
  · intro h
    refine ⟨(List.getElem?_eq_some_iff.1 h).1, by rw [h]; rfl⟩

theorem maskRows_nodup (mask : List Bool) : (maskRows mask).Nodup := List.nodup_range.filter _

/-- The selected diaries of a household. -/
theorem select_count (V : SurveyRaw) (hV : ValidSurvey V) (a : SubgroupArgs) (rows : List Nat) (nd : rows.Nodup) (hr : ∀ p, p ∈ rows ↔ ∃ r, V.tables.rows[p]? = some r ∧ BelongsTo V.tables a r) (h d : Nat) (f : Nat → Bool) (F : Nat → Prop)
    (hf : ∀ p, p < V.tables.rows.length → (f p = true ↔ F p)) :
    ((members rows.length (rows.map fun p => (V.tables.rows.map (·.hh)).getD p 0) (rows.map fun p => (V.tables.rows.map fun r => r.day.toNat).getD p 0) h d).filter fun k => f (rows.getD k 0)).length =
      {p | V.Member a h d p ∧ F p}.ncard := by
  rw [ncard_filter rows nd (fun p => decide ((V.tables.rows.map (·.hh)).getD p 0 = h ∧ (V.tables.rows.map fun r => r.day.toNat).getD p 0 = d) && f p)]
  · rw [← filter_range_getD rows 0]
    unfold members
    rw [List.filter_filter]
    congr 1
    apply List.filter_congr
    intro k hk
    have hk := List.mem_range.1 hk
    rw [List.getElem?_map, List.getElem?_map, List.getElem?_eq_getElem hk, getD_eq rows k 0 hk]
    simp only [Option.map_some, Option.getD_some, Option.some.injEq]
    rw [Bool.and_comm]
  · intro p
    rw [Set.mem_ofPred_eq, hr, Bool.and_eq_true, decide_eq_true_eq]
    constructor
    · rintro ⟨⟨r, r1, r2, r3, r4⟩, hF⟩
      have hlt := (List.getElem?_eq_some_iff.1 r1).1
      refine ⟨⟨r, r1, r2⟩, ⟨?_, ?_⟩, (hf p hlt).2 hF⟩
      · rw [List.getD_eq_getElem?_getD, List.getElem?_map, r1]
        exact r3
      · rw [List.getD_eq_getElem?_getD, List.getElem?_map, r1]
        show r.day.toNat = d
        omega
    · rintro ⟨⟨r, r1, r2⟩, ⟨r3, r4⟩, hF⟩
      have hlt := (List.getElem?_eq_some_iff.1 r1).1
      rw [List.getD_eq_getElem?_getD, List.getElem?_map, r1] at r3 r4
      have h3 : r.hh = h := r3
      have h4 : r.day.toNat = d := r4
      have h0 := hV.days r (List.mem_of_getElem? r1)
      exact ⟨⟨r, r1, r2, h3, by omega⟩, (hf p hlt).1 hF⟩

/-- Strictly increasing numbers below a bound are at most as many. -/
theorem length_le_of_sorted (l : List Nat) (hs : l.Pairwise (· < ·)) (n : Nat) (h : ∀ x ∈ l, x < n) : l.length ≤ n := by
  have nd : l.Nodup := hs.imp fun h => Nat.ne_of_lt h
  rw [← List.toFinset_card_of_nodup nd]
  have : l.toFinset ⊆ Finset.range n := by
    intro x hx
    exact Finset.mem_range.2 (h x (List.mem_toFinset.1 hx))
  simpa using Finset.card_le_card this

/-- Who is at home. -/
theorem occ_home (V : SurveyRaw) (hV : ValidSurvey V) (hn0 : 0 < V.tables.rows.length) :
    ∃ occ, statesToOccupancy V.primary V.secondary V.initial (finalLocation V.tables.rows.length V.initial V.final) V.home = .ok occ ∧ occ.nP = V.primary.nP ∧ occ.nT = V.primary.nT ∧
      ∀ p, p < V.tables.rows.length → ∀ t < 144, (occ.at' p t = true ↔ V.AtHome p t) := by
  obtain ⟨nP1, nP2⟩ := hV.nP
  obtain ⟨nT1, nT2⟩ := hV.nT
  obtain ⟨occ, o1, o2, o3, o4⟩ := C92_occupancy_partial V.primary V.secondary (by omega) (by omega) (by omega) (by omega) V.initial (finalLocation V.tables.rows.length V.initial V.final) V.home hV.rated.1 hV.rated.2
  refine ⟨occ, o1, o2, o3, ?_⟩
  intro p hp t ht
  obtain ⟨q1, q2, q3, q4⟩ := o4 p t (by omega) (by omega)
  have hfin : finalLocation V.tables.rows.length V.initial V.final p = V.lastPlace p := by
    obtain ⟨f1, f2, f3⟩ := C92_final_location V.tables.rows.length V.initial V.final p hp
    unfold SurveyRaw.lastPlace
    by_cases hc : V.final p = -2
    · rw [if_pos hc]
      by_cases hz : p = 0
      · rw [if_pos hz, f3 hc hz]
      · rw [if_neg hz, f2 hc (by omega)]
    · rw [if_neg hc, f1 hc]
  rw [hfin, nT1] at q4
  rw [nT1] at q3
  unfold SurveyRaw.AtHome
  by_cases c1 : ∀ j ≤ t, ¬ OnTheWay V.primary V.secondary p j
  · have hno : ¬ ∃ j ≤ t, OnTheWay V.primary V.secondary p j := by
      rintro ⟨j, j1, j2⟩
      exact c1 j j1 j2
    rw [q2 c1]
    constructor
    · exact fun h => .inl ⟨c1, h⟩
    · rintro (⟨-, h⟩ | ⟨h, -⟩)
      · exact h
      · exact absurd h hno
  · have hyes : ∃ j ≤ t, OnTheWay V.primary V.secondary p j := by
      push Not at c1
      exact c1
    by_cases c2 : ∀ j, t ≤ j → j < 144 → ¬ OnTheWay V.primary V.secondary p j
    · rw [q4 hyes c2]
      constructor
      · exact fun h => .inr ⟨hyes, c2, h⟩
      · rintro (⟨h, -⟩ | ⟨-, -, h⟩)
        · exact absurd h c1
        · exact h
    · have hex : ∃ j, t ≤ j ∧ j < 144 ∧ OnTheWay V.primary V.secondary p j := by
        push Not at c2
        exact c2
      rw [q3 hyes hex]
      constructor
      · intro h; cases h
      · rintro (⟨h, -⟩ | ⟨-, h, -⟩)
        · exact absurd h c1
        · exact absurd h c2


/-- What the parsed data of a subgroup are: the codes `C` of the situations of the recorded households. -/
theorem sparse9_spec (V : SurveyRaw) (hV : ValidSurvey V) (a : SubgroupArgs) (ha : UsableGroup V a) :
    ∃ (C : Diaries Nat) (keys : List (Nat × Nat)) (labels : List Nat) (tpm : SparseTPM),
      sparse9States V a = .ok (tpm, labels, ["active".toList, "HWH".toList, "HOH".toList], (List.range tpm.nStates).map (initialPdf C)) ∧ statesToSparseTpm C .nothing = .ok tpm ∧
      keys.Nodup ∧ (∀ d h, (d, h) ∈ keys ↔ V.Recorded a h d) ∧ C.nP = keys.length ∧ C.nT = 144 ∧
      (∀ (r : Nat) d h, keys[r]? = some (d, h) → ∀ t < 144, labels[C.at' r t]? = some (packed (V.situation a h d t)) ∧
        (V.situation a h d t).1 < 7 ∧ (V.situation a h d t).2.1 < 7 ∧ (V.situation a h d t).2.2 < 7) ∧
      labels.Pairwise (· < ·) ∧ (∀ y, y ∈ labels ↔ ∃ h d t, V.Recorded a h d ∧ t < 144 ∧ packed (V.situation a h d t) = y) ∧ labels.length ≤ 343 := by
  obtain ⟨nP1, nP2⟩ := hV.nP
  obtain ⟨nT1, nT2⟩ := hV.nT
  obtain ⟨h0, d0, p0, r0, hp0, hq0⟩ := ha.some
  have hn0 : 0 < V.tables.rows.length := by
    have := (List.getElem?_eq_some_iff.1 hp0).1
    omega
  -- the occupancy
  obtain ⟨occ, o1, o2, o3, hocc⟩ := occ_home V hV hn0
  -- who is awake
  obtain ⟨A, LA, a1, -, -, a4, -⟩ := convertArray_spec intLt strLt intLt_total strLt_total V.energy V.primary (by omega) (by omega) (fun p t hp ht => (hV.energy p t (by omega) (by omega)).1)
  obtain ⟨B, LB, b1, -, -, b4, -⟩ := convertArray_spec intLt strLt intLt_total strLt_total V.energy V.secondary (by omega) (by omega) (fun p t hp ht => (hV.energy p t (by omega) (by omega)).2)
  obtain ⟨act, hact⟩ : ∃ act : Nat → Nat → Bool, act = fun p t => decide (LA.getD (A.at' p t) [] ≠ "not active".toList) && decide (LB.getD (B.at' p t) [] ≠ "not active".toList) := ⟨_, rfl⟩
  have hactive : activeStates V = .ok act := by
    unfold activeStates
    rw [a1]
    simp only [bind, Except.bind]
    rw [b1, hact]
  have hawake : ∀ p, p < V.tables.rows.length → ∀ t < 144, (act p t = true ↔ V.Awake p t) := by
    intro p hp t ht
    obtain ⟨⟨y, hy⟩, z, hz⟩ := hV.energy p t hp ht
    have e1 := a4 p t (by omega) (by omega)
    have e2 := b4 p t (by omega) (by omega)
    unfold SurveyRaw.Awake
    rw [hact, hy, hz]
    rw [hy] at e1
    rw [hz] at e2
    simp only [List.getD_eq_getElem?_getD, e1, e2, Option.getD_some, Bool.and_eq_true, decide_eq_true_eq, ne_eq, Option.some.injEq]
  -- the selected diaries
  obtain ⟨mask, m1, m2, m3⟩ := C98_mask_partial V.tables a hV.missing hV.persons ha.accepted (.inl ha.filters)
  obtain ⟨rows, hrows⟩ : ∃ rows, rows = maskRows mask := ⟨_, rfl⟩
  have nd : rows.Nodup := hrows ▸ maskRows_nodup mask
  have hr : ∀ p, p ∈ rows ↔ ∃ r, V.tables.rows[p]? = some r ∧ BelongsTo V.tables a r := by
    intro p
    rw [hrows, mem_maskRows]
    constructor
    · intro h
      have hlt : p < V.tables.rows.length := by rw [← m2]; exact (List.getElem?_eq_some_iff.1 h).1
      exact ⟨_, List.getElem?_eq_getElem hlt, (m3 p _ (List.getElem?_eq_getElem hlt)).1 h⟩
    · rintro ⟨r, r1, r2⟩
      exact (m3 p r r1).2 r2
  have hrlt : ∀ p ∈ rows, p < V.tables.rows.length := by
    intro p hp
    obtain ⟨r, r1, -⟩ := (hr p).1 hp
    exact (List.getElem?_eq_some_iff.1 r1).1
  obtain ⟨HH, hHH⟩ : ∃ HH, HH = rows.map fun p => (V.tables.rows.map (·.hh)).getD p 0 := ⟨_, rfl⟩
  obtain ⟨DD, hDD⟩ : ∃ DD, DD = rows.map fun p => (V.tables.rows.map fun r => r.day.toNat).getD p 0 := ⟨_, rfl⟩
  have hcount : ∀ h d (f : Nat → Bool) (F : Nat → Prop), (∀ p, p < V.tables.rows.length → (f p = true ↔ F p)) →
      ((members rows.length HH DD h d).filter fun k => f (rows.getD k 0)).length = {p | V.Member a h d p ∧ F p}.ncard := by
    intro h d f F hf
    rw [hHH, hDD]
    exact select_count V hV a rows nd hr h d f F hf
  have hcount1 : ∀ h d, (members rows.length HH DD h d).length = {p | V.Member a h d p}.ncard := by
    intro h d
    have := hcount h d (fun _ => true) (fun _ => True) (fun _ _ => by simp)
    simpa using this
  have hsize : ∀ h d, (members rows.length HH DD h d).length ≤ 6 := by
    intro h d
    rw [hcount1]
    exact ha.six h d
  obtain ⟨Y, keys, y1, y2, y3, y4, y5, y6⟩ := C93_sparse (selectRows rows occ) (fun p t => act (rows.getD p 0) t) (selectRows rows V.primary) (selectRows rows V.secondary) HH DD
    (by rw [hHH, List.length_map]; rfl) (by rw [hDD, List.length_map]; rfl) hsize
  have yT : Y.nT = 144 := by
    rw [y3]
    show occ.nT = 144
    omega
  have hgroup : groupHouseholds (selectRows rows ⟨V.primary.nP, V.primary.nT, fun p t => personaState (act p t) (outForWhat (occ.at' p t) (V.primary.at' p t) (V.secondary.at' p t))⟩) HH DD = .ok Y := by
    rw [← y1]
    unfold selectRows
    rw [o3]
  have hfin : ∀ h d, {p | V.Member a h d p}.Finite := by
    intro h d
    refine (Set.finite_lt_nat V.tables.rows.length).subset ?_
    rintro p ⟨r, r1, -⟩
    exact (List.getElem?_eq_some_iff.1 r1).1
  have hkeys : ∀ d h, (d, h) ∈ keys ↔ V.Recorded a h d := by
    intro d h
    rw [y5]
    show members rows.length HH DD h d ≠ [] ↔ _
    rw [← List.length_pos_iff, hcount1, Set.ncard_pos (hfin h d)]
    rfl
  have hYat : ∀ (r : Nat) d h, keys[r]? = some (d, h) → ∀ t < 144, Y.at' r t = packed (V.situation a h d t) ∧ Y.at' r t < 343 ∧ (V.situation a h d t).1 < 7 ∧ (V.situation a h d t).2.1 < 7 ∧ (V.situation a h d t).2.2 < 7 := by
    intro r d h hk t ht
    obtain ⟨z1, z2, z3, z4⟩ := y6 r d h hk t
    have e1 : {p | V.Member a h d p ∧ V.AtHome p t ∧ V.Awake p t}.ncard = Y.at' r t % 7 := by
      rw [z2, ← hcount h d (fun p => occ.at' p t && act p t) _ (fun p hp => by rw [Bool.and_eq_true, hocc p hp t ht, hawake p hp t ht])]
      rfl
    have hwork : ∀ p, V.ForWork p t ↔ ∃ s ∈ [V.primary.at' p t, V.secondary.at' p t], (200 ≤ s ∧ s < 400) ∨ (900 ≤ s ∧ s ≤ 940) := fun p => Iff.rfl
    have e2 : {p | V.Member a h d p ∧ ¬ V.AtHome p t ∧ V.ForWork p t}.ncard = Y.at' r t / 7 % 7 := by
      rw [z3, ← hcount h d (fun p => !occ.at' p t && decide (∃ s ∈ [V.primary.at' p t, V.secondary.at' p t], (200 ≤ s ∧ s < 400) ∨ (900 ≤ s ∧ s ≤ 940))) _
        (fun p hp => by rw [Bool.and_eq_true, decide_eq_true_eq, ← hwork, Bool.not_eq_true', ← hocc p hp t ht, Bool.not_eq_true])]
      rfl
    have e3 : {p | V.Member a h d p ∧ ¬ V.AtHome p t ∧ ¬ V.ForWork p t}.ncard = Y.at' r t / 49 := by
      rw [z4, ← hcount h d (fun p => !occ.at' p t && decide (¬ ∃ s ∈ [V.primary.at' p t, V.secondary.at' p t], (200 ≤ s ∧ s < 400) ∨ (900 ≤ s ∧ s ≤ 940))) _
        (fun p hp => by rw [Bool.and_eq_true, decide_eq_true_eq, ← hwork, Bool.not_eq_true', ← hocc p hp t ht, Bool.not_eq_true])]
      rfl
    unfold packed SurveyRaw.situation
    simp only [e1, e2, e3]
    omega
  have hYpos : 0 < Y.nP := by
    rw [y2]
    exact List.length_pos_of_mem ((hkeys d0 h0).2 ⟨p0, r0, hp0, hq0⟩)
  have hYkey : ∀ r, r < Y.nP → ∃ d h, keys[r]? = some (d, h) := by
    intro r hr
    exact ⟨keys[r].1, keys[r].2, List.getElem?_eq_getElem (by omega)⟩
  obtain ⟨C, labels, c1, c2, c3, c4, c5, c6, c7⟩ := convertArray_spec natLt natLt natLt_total natLt_total some Y hYpos (by omega) (fun p t _ _ => ⟨_, rfl⟩)
  have hsorted : labels.Pairwise (· < ·) := c5.imp fun h => by simpa [natLt] using h
  have hlab : ∀ y ∈ labels, y < 343 := by
    intro y hy
    obtain ⟨r, t, hr, ht, e⟩ := (c7 y).1 hy
    obtain ⟨d, h, hk⟩ := hYkey r hr
    have := (hYat r d h hk t (by omega)).2.1
    have e := Option.some.inj e
    omega
  have hlen := length_le_of_sorted labels hsorted 343 hlab
  obtain ⟨tpm, t1, -⟩ := C94_matrix C (by omega) (by omega) (by omega) (by
    intro p t hp ht
    have := c4 p t (by omega) (by omega)
    have := (List.getElem?_eq_some_iff.1 this).1
    omega)
  refine ⟨C, keys, labels, tpm, ?_, t1, y4, hkeys, by omega, by omega, ?_, hsorted, ?_, hlen⟩
  · unfold sparse9States
    rw [o1]
    simp only [bind, Except.bind]
    rw [hactive]
    simp only
    rw [m1]
    simp only
    rw [← hrows, ← hHH, ← hDD, hgroup]
    simp only
    rw [c1]
    simp only
    rw [t1]
  · intro r d h hk t ht
    have hr : r < Y.nP := by rw [y2]; exact (List.getElem?_eq_some_iff.1 hk).1
    obtain ⟨s1, -, s2⟩ := hYat r d h hk t ht
    rw [c4 r t hr (by omega), s1]
    exact ⟨rfl, s2⟩
  · intro y
    rw [c7]
    constructor
    · rintro ⟨r, t, hr, ht, e⟩
      obtain ⟨d, h, hk⟩ := hYkey r hr
      refine ⟨h, d, t, (hkeys d h).1 (List.mem_of_getElem? hk), by omega, ?_⟩
      rw [← (hYat r d h hk t (by omega)).1]
      exact Option.some.inj e
    · rintro ⟨h, d, t, hrec, ht, e⟩
      obtain ⟨r, hr, hk⟩ := List.mem_iff_getElem.1 ((hkeys d h).2 hrec)
      have hk : keys[r]? = some (d, h) := by rw [List.getElem?_eq_getElem hr, hk]
      exact ⟨r, t, by omega, by omega, by rw [(hYat r d h hk t ht).1, e]⟩

/-- The number of recorded households with a property, from the list of the households. -/
theorem ncard_keys (V : SurveyRaw) (a : SubgroupArgs) (keys : List (Nat × Nat)) (nd : keys.Nodup) (hk : ∀ d h, (d, h) ∈ keys ↔ V.Recorded a h d) (n : Nat) (hn : n = keys.length) (f : Nat → Bool) (F : Nat → Nat → Prop)
    (hf : ∀ (r : Nat) d h, keys[r]? = some (d, h) → (f r = true ↔ F h d)) : (List.range n).countP f = {x : Nat × Nat | V.Recorded a x.1 x.2 ∧ F x.1 x.2}.ncard := by
  classical
  have nd' : (keys.map Prod.swap).Nodup := nd.map Prod.swap_injective
  rw [ncard_filter (keys.map Prod.swap) nd' (fun x => decide (F x.1 x.2))]
  · rw [← List.countP_eq_length_filter, List.countP_map]
    conv_rhs => rw [← range_getD keys (0, 0), List.countP_map]
    rw [hn]
    apply List.countP_congr
    intro r hr
    have hr := List.mem_range.1 hr
    have e : keys[r]? = some ((keys.getD r (0, 0)).1, (keys.getD r (0, 0)).2) := by
      rw [getD_eq keys r _ hr, List.getElem?_eq_getElem hr]
    simp only [Function.comp_apply, Prod.fst_swap, Prod.snd_swap, decide_eq_true_eq]
    exact hf r _ _ e
  · rintro ⟨h, d⟩
    rw [Set.mem_ofPred_eq, decide_eq_true_eq, ← hk]
    simp only [List.mem_map, Prod.exists, Prod.swap_prod_mk, Prod.mk.injEq]
    constructor
    · rintro ⟨h1, h2⟩
      exact ⟨⟨d, h, h1, rfl, rfl⟩, h2⟩
    · rintro ⟨⟨d', h', h1, rfl, rfl⟩, h2⟩
      exact ⟨h1, h2⟩

/-- What the data of a subgroup are, in terms of the recorded households. -/
structure DayFacts (V : SurveyRaw) (a : SubgroupArgs) (tpm : SparseTPM) (labels : List Nat) (pdf : List Rat) : Prop where
  load : sparse9States V a = .ok (tpm, labels, ["active".toList, "HWH".toList, "HOH".toList], pdf)
  wf : tpm.WF
  nTimes : tpm.nTimes = 144
  size : labels.length = tpm.nStates
  sorted : labels.Pairwise (· < ·)
  mem : ∀ y, y ∈ labels ↔ ∃ h d t, V.Recorded a h d ∧ t < 144 ∧ packed (V.situation a h d t) = y
  small : ∀ h d t, V.Recorded a h d → t < 144 → (V.situation a h d t).1 < 7 ∧ (V.situation a h d t).2.1 < 7 ∧ (V.situation a h d t).2.2 < 7
  pdfLength : pdf.length = labels.length
  starts : ∀ (i : Nat) y, labels[i]? = some y → pdf[i]? = some (({x : Nat × Nat | V.Recorded a x.1 x.2 ∧ packed (V.situation a x.1 x.2 0) = y}.ncard : Rat) / ({x : Nat × Nat | V.Recorded a x.1 x.2}.ncard : Rat))
  pdfDist : IsDist pdf
  order : ∀ t, tpm.SortedAt t
  entries : ∀ t i j, (∃ v, (t, i, j, v) ∈ tpm.entries) ↔ t < 144 ∧ ∃ h d, V.Recorded a h d ∧ labels[i]? = some (packed (V.situation a h d t)) ∧ labels[j]? = some (packed (V.situation a h d ((t + 1) % 144)))
  matrix : ∀ t : Nat, t < 144 → ∃ M, tpm.getItem (t : Int) = .ok M ∧ ∀ (i j : Nat) y z, labels[i]? = some y → labels[j]? = some z →
    (M.getD i []).getD j 0 = if {x : Nat × Nat | V.Recorded a x.1 x.2 ∧ packed (V.situation a x.1 x.2 t) = y}.ncard = 0 then 0 else
      ({x : Nat × Nat | V.Recorded a x.1 x.2 ∧ packed (V.situation a x.1 x.2 t) = y ∧ packed (V.situation a x.1 x.2 ((t + 1) % 144)) = z}.ncard : Rat) /
        ({x : Nat × Nat | V.Recorded a x.1 x.2 ∧ packed (V.situation a x.1 x.2 t) = y}.ncard : Rat)
  rows : ∀ (t : Nat) M q, tpm.getItem t = .ok M → tpm.Leaves (t % tpm.nTimes) q → IsDist (M.getD q [])

theorem sum_div (m : Nat) (f : Nat → Rat) (c : Rat) : ((List.range m).map fun j => f j / c).sum = ((List.range m).map f).sum / c := by
  induction m with
  | zero => simp
  | succ m ih => simp only [List.range_succ, List.map_append, List.sum_append, ih, List.map_cons, List.map_nil, List.sum_cons, List.sum_nil]; ring

theorem day_facts (V : SurveyRaw) (hV : ValidSurvey V) (a : SubgroupArgs) (ha : UsableGroup V a) : ∃ tpm labels pdf, DayFacts V a tpm labels pdf := by
  obtain ⟨C, keys, labels, tpm, e1, e2, nd, hk, cP, cT, hC, hs, hmem, hlen⟩ := sparse9_spec V hV a ha
  obtain ⟨h0, d0, hrec0⟩ := ha.some
  have hpos : 0 < C.nP := by
    rw [cP]
    exact List.length_pos_of_mem ((hk d0 h0).2 hrec0)
  have hkey : ∀ r, r < C.nP → ∃ d h, keys[r]? = some (d, h) := by
    intro r hr
    exact ⟨keys[r].1, keys[r].2, List.getElem?_eq_getElem (by omega)⟩
  have hclt : ∀ r t, r < C.nP → t < 144 → C.at' r t < labels.length := by
    intro r t hr ht
    obtain ⟨d, h, hk'⟩ := hkey r hr
    exact (List.getElem?_eq_some_iff.1 (hC r d h hk' t ht).1).1
  have hinj : labels.Nodup := hs.imp fun h => Nat.ne_of_lt h
  have hcode : ∀ (r : Nat) d h, keys[r]? = some (d, h) → ∀ t < 144, ∀ i y, labels[i]? = some y → (C.at' r t = i ↔ packed (V.situation a h d t) = y) := by
    intro r d h hr t ht i y hi
    have h1 := (hC r d h hr t ht).1
    obtain ⟨l1, v1⟩ := List.getElem?_eq_some_iff.1 h1
    obtain ⟨l2, v2⟩ := List.getElem?_eq_some_iff.1 hi
    rw [← v1, ← v2, hinj.getElem_inj_iff]
  obtain ⟨tpm', e3, wf, nT, -, n1, ⟨pm, tm, hpm, htm, n2⟩, so, ent, mat⟩ := C94_matrix C hpos (by omega) (by omega) (fun r t hr ht => by have := hclt r t hr (by omega); omega)
  rw [e2, Except.ok.injEq] at e3
  subst e3
  have hsize : labels.length = tpm.nStates := by
    have hl := hclt pm tm hpm (by omega)
    have hlpos : 0 < labels.length := by omega
    obtain ⟨h, d, t, hr, ht, e⟩ := (hmem _).1 (List.getElem_mem (show labels.length - 1 < labels.length by omega))
    obtain ⟨r, hr', hk'⟩ := List.mem_iff_getElem?.1 ((hk d h).2 hr) |>.elim fun r hr => (⟨r, (List.getElem?_eq_some_iff.1 hr).1, hr⟩ : ∃ r, ∃ _ : r < keys.length, keys[r]? = some (d, h))
    have := (hcode r d h hk' t ht _ _ (List.getElem?_eq_getElem (show labels.length - 1 < labels.length by omega))).2 e
    have := n1 r t (by omega) (by omega)
    omega
  have hN : ∀ t < 144, ∀ i y, labels[i]? = some y → howMany C (fun p => decide (C.at' p t = i)) = {x : Nat × Nat | V.Recorded a x.1 x.2 ∧ packed (V.situation a x.1 x.2 t) = y}.ncard := by
    intro t ht i y hi
    exact ncard_keys V a keys nd hk _ cP _ (fun h d => packed (V.situation a h d t) = y) fun r d h hr => by
      rw [decide_eq_true_eq]
      exact hcode r d h hr t ht i y hi
  have hN2 : ∀ t < 144, ∀ i j y z, labels[i]? = some y → labels[j]? = some z → howMany C (fun p => decide (C.at' p t = i ∧ C.at' p ((t + 1) % C.nT) = j)) =
      {x : Nat × Nat | V.Recorded a x.1 x.2 ∧ packed (V.situation a x.1 x.2 t) = y ∧ packed (V.situation a x.1 x.2 ((t + 1) % 144)) = z}.ncard := by
    intro t ht i j y z hi hj
    exact ncard_keys V a keys nd hk _ cP _ (fun h d => packed (V.situation a h d t) = y ∧ packed (V.situation a h d ((t + 1) % 144)) = z) fun r d h hr => by
      rw [decide_eq_true_eq, cT, hcode r d h hr t ht i y hi, hcode r d h hr _ (Nat.mod_lt _ (by omega)) j z hj]
  have hAll : C.nP = {x : Nat × Nat | V.Recorded a x.1 x.2}.ncard := by
    have := ncard_keys V a keys nd hk _ cP (fun _ => true) (fun _ _ => True) (fun _ _ _ _ => by simp)
    simpa using this
  have hmod : ∀ t : Nat, tpm.getItem (t : Int) = tpm.getItem ((t % 144 : Nat) : Int) := by
    intro t
    rw [SparseTPM.getItem_wf wf, SparseTPM.getItem_wf wf, nT, cT]
    congr 2
    push_cast
    rw [Int.emod_emod_of_dvd _ (dvd_refl _)]
  refine ⟨tpm, labels, _, e1, wf, by omega, hsize, hs, hmem, ?_, by simp [hsize], ?_, ?_, so, ?_, ?_, ?_⟩
  · intro h d t hr ht
    obtain ⟨r, hr'⟩ := List.mem_iff_getElem?.1 ((hk d h).2 hr)
    exact (hC r d h hr' t ht).2
  · intro i y hi
    have hlt := (List.getElem?_eq_some_iff.1 hi).1
    rw [List.getElem?_map, List.getElem?_range (by omega), Option.map_some, Option.some.injEq]
    unfold initialPdf
    rw [← hAll, ← hN 0 (by omega) i y hi]
    congr 2
    unfold Diaries.col howMany
    rw [List.count_eq_countP, List.countP_map]
    apply List.countP_congr
    intro p _
    simp
  · constructor
    · intro x hx
      obtain ⟨i, -, rfl⟩ := List.mem_map.1 hx
      unfold initialPdf
      positivity
    · unfold initialPdf
      rw [sum_div]
      have h2 : ((List.range tpm.nStates).map fun i => ((C.col 0).count i : Rat)).sum = (C.nP : Rat) := by
        have := sumTo_countP tpm.nStates (C.col 0) (fun _ => true) id (by
          intro x hx _
          obtain ⟨p, hp, rfl⟩ := List.mem_map.1 hx
          exact n1 p 0 (List.mem_range.1 hp) (by omega))
        rw [List.countP_true, show (C.col 0).length = C.nP by simp [Diaries.col]] at this
        rw [← this]
        unfold sumTo
        congr 1
      rw [h2]
      exact div_self (by positivity)
  · intro t i j
    rw [ent, cT]
    constructor
    · rintro ⟨ht, p, hp, hi, hj⟩
      obtain ⟨d, h, hr⟩ := hkey p hp
      refine ⟨ht, h, d, (hk d h).1 (List.mem_of_getElem? hr), ?_, ?_⟩
      · rw [← hi]
        exact (hC p d h hr t ht).1
      · rw [← hj]
        exact (hC p d h hr _ (Nat.mod_lt _ (by omega))).1
    · rintro ⟨ht, h, d, hr, hi, hj⟩
      obtain ⟨r, hr'⟩ := List.mem_iff_getElem?.1 ((hk d h).2 hr)
      refine ⟨ht, r, by rw [cP]; exact (List.getElem?_eq_some_iff.1 hr').1, (hcode r d h hr' t ht i _ hi).2 rfl, (hcode r d h hr' _ (Nat.mod_lt _ (by omega)) j _ hj).2 rfl⟩
  · intro t ht
    obtain ⟨M, m1, -, m2⟩ := mat t (by omega)
    refine ⟨M, m1, fun i j y z hi hj => ?_⟩
    have li := (List.getElem?_eq_some_iff.1 hi).1
    have lj := (List.getElem?_eq_some_iff.1 hj).1
    rw [m2 i j (by omega) (by omega), hN t ht i y hi, hN2 t ht i j y z hi hj]
  · intro t M q hM hl
    rw [hmod] at hM
    have ht : t % 144 < 144 := Nat.mod_lt _ (by omega)
    rw [nT, cT] at hl
    obtain ⟨M', m1, sq, m2⟩ := mat (t % 144) (by omega)
    rw [m1, Except.ok.injEq] at hM
    subst hM
    obtain ⟨⟨t', q', j, v⟩, he, rfl, rfl⟩ := hl
    obtain ⟨-, p, hp, hq, -⟩ := (ent _ _ _).1 ⟨v, he⟩
    simp only at *
    have hqlt : q' < tpm.nStates := by rw [← hq]; exact n1 p _ hp (by omega)
    have hpos' : 0 < howMany C (fun p => decide (C.at' p (t % 144) = q')) := by
      unfold howMany
      rw [List.countP_pos_iff]
      exact ⟨p, List.mem_range.2 hp, by simp [hq]⟩
    have hrow : M'.getD q' [] = (List.range tpm.nStates).map fun j => (howMany C (fun p => decide (C.at' p (t % 144) = q') && decide (C.at' p ((t % 144 + 1) % C.nT) = j)) : Rat) / (howMany C (fun p => decide (C.at' p (t % 144) = q')) : Rat) := by
      have hlen : (M'.getD q' []).length = tpm.nStates := by
        rw [getD_eq _ q' [] (by rw [sq.1]; exact hqlt)]
        exact sq.2 _ (List.getElem_mem _)
      apply List.ext_getElem
      · rw [hlen, List.length_map, List.length_range]
      · intro j h1 h2
        have hj : j < tpm.nStates := by omega
        have := m2 q' j hqlt hj
        rw [getD_eq _ j 0 h1, if_neg (by omega)] at this
        rw [this, List.getElem_map, List.getElem_range]
        congr 3
        funext p
        simp
    rw [hrow]
    constructor
    · intro x hx
      obtain ⟨j, -, rfl⟩ := List.mem_map.1 hx
      positivity
    · rw [sum_div]
      have := sumTo_countP tpm.nStates (List.range C.nP) (fun p => decide (C.at' p (t % 144) = q')) (fun p => C.at' p ((t % 144 + 1) % C.nT)) (fun p hp _ => n1 p _ (List.mem_range.1 hp) (Nat.mod_lt _ (by omega)))
      unfold sumTo at this
      unfold howMany at hpos' ⊢
      rw [this]
      exact div_self (by positivity)

/-- Packed situations with digits can be told apart. -/
theorem packed_inj {x y : Nat × Nat × Nat} (hx : x.1 < 7 ∧ x.2.1 < 7 ∧ x.2.2 < 7) (hy : y.1 < 7 ∧ y.2.1 < 7 ∧ y.2.2 < 7) (h : packed x = packed y) : x = y := by
  obtain ⟨a, b, c⟩ := x
  obtain ⟨a', b', c'⟩ := y
  simp only [packed, Prod.mk.injEq] at *
  omega

namespace DayFacts

variable {V : SurveyRaw} {a : SubgroupArgs} {tpm : SparseTPM} {labels : List Nat} {pdf : List Rat}

theorem leaves (F : DayFacts V a tpm labels pdf) (t q : Nat) (ht : t < 144) : tpm.Leaves t q ↔ ∃ h d, V.Recorded a h d ∧ labels[q]? = some (packed (V.situation a h d t)) := by
  constructor
  · rintro ⟨⟨t', q', j, v⟩, he, rfl, rfl⟩
    obtain ⟨-, h, d, hr, h1, -⟩ := (F.entries _ _ _).1 ⟨v, he⟩
    exact ⟨h, d, hr, h1⟩
  · rintro ⟨h, d, hr, h1⟩
    obtain ⟨j, hj⟩ := List.mem_iff_getElem?.1 ((F.mem _).2 ⟨h, d, (t + 1) % 144, hr, Nat.mod_lt _ (by omega), rfl⟩)
    obtain ⟨v, hv⟩ := (F.entries t q j).2 ⟨ht, h, d, hr, h1, hj⟩
    exact ⟨_, hv, rfl, rfl⟩

theorem nodup (F : DayFacts V a tpm labels pdf) : labels.Nodup := F.sorted.imp fun h => Nat.ne_of_lt h

/-- All members of a recorded household are asleep at home at the start of the day: its label is 0, the first. -/
theorem first (F : DayFacts V a tpm labels pdf) (hz : ∃ h d, V.Recorded a h d ∧ V.situation a h d 0 = (0, 0, 0)) : labels[0]? = some 0 := by
  obtain ⟨h, d, hr, e⟩ := hz
  have hm : 0 ∈ labels := (F.mem 0).2 ⟨h, d, 0, hr, by omega, by rw [e]; rfl⟩
  cases labels with
  | nil => simp at hm
  | cons y l =>
    rcases List.mem_cons.1 hm with h | h
    · rw [← h]; rfl
    · have := List.rel_of_pairwise_cons F.sorted h
      omega

theorem validDay (F : DayFacts V a tpm labels pdf) (hz : ∃ h d, V.Recorded a h d ∧ V.situation a h d 0 = (0, 0, 0)) : ValidDay tpm labels where
  wf := F.wf
  sorted := F.order
  size := F.size
  nodup := F.nodup
  first := ⟨0, F.first hz, by
    obtain ⟨h, -⟩ := List.getElem?_eq_some_iff.1 (F.first hz)
    exact h⟩
  rows := F.rows
  stuck := by
    refine .inr ⟨F.nTimes, ?_, ?_⟩
    · obtain ⟨h, d, hr, e⟩ := hz
      exact (F.leaves 0 0 (by omega)).2 ⟨h, d, hr, by rw [F.first ⟨h, d, hr, e⟩, e]; rfl⟩
    · rintro ⟨t, i, j, v⟩ he hlt
      obtain ⟨-, h, d, hr, -, h2⟩ := (F.entries _ _ _).1 ⟨v, he⟩
      simp only at hlt
      exact (F.leaves _ _ hlt).2 ⟨h, d, hr, by rw [h2, Nat.mod_eq_of_lt hlt]⟩

/-- A move goes along an entry. -/
theorem moveEntry (F : DayFacts V a tpm labels pdf) (j p i : Nat) (M : List (List Rat)) (hM : tpm.getItem j = .ok M) (u : Rat) (h1 : ((M.getD p []).take i).sum < u) (h2 : u ≤ ((M.getD p []).take (i + 1)).sum) :
    ∃ h d, V.Recorded a h d ∧ labels[p]? = some (packed (V.situation a h d (j % 144))) ∧ labels[i]? = some (packed (V.situation a h d ((j + 1) % 144))) := by
  have hne : (M.getD p []).getD i 0 ≠ 0 := by
    intro h0
    have : ((M.getD p []).take (i + 1)).sum = ((M.getD p []).take i).sum := by
      rw [List.take_add_one, List.sum_append]
      rw [List.getD_eq_getElem?_getD] at h0
      cases hx : (M.getD p [])[i]? with
      | none => simp
      | some x =>
        rw [hx] at h0
        simp only [Option.getD_some] at h0
        simp [h0]
    rw [this] at h2
    exact absurd (lt_of_lt_of_le h1 h2) (lt_irrefl _)
  obtain ⟨⟨t, p', i', v⟩, he, rfl, rfl, rfl⟩ := SparseTPM.entry_of_ne F.wf j M hM p i hne
  obtain ⟨-, h, d, hr, e1, e2⟩ := (F.entries _ _ _).1 ⟨v, he⟩
  rw [F.nTimes] at e1 e2
  rw [show (j % 144 + 1) % 144 = (j + 1) % 144 by omega] at e2
  exact ⟨h, d, hr, e1, e2⟩

end DayFacts

/-- The situation that a label packs. -/
def unpacked (l : Nat) : Nat × Nat × Nat := (l % 7, l / 7 % 7, l / 49)

theorem unpacked_packed {x : Nat × Nat × Nat} (hx : x.1 < 7 ∧ x.2.1 < 7 ∧ x.2.2 < 7) : unpacked (packed x) = x := by
  obtain ⟨a, b, c⟩ := x
  simp only [packed, unpacked, Prod.mk.injEq] at *
  omega

theorem subgroupArgs_given {g : Subgroup} {n ty : Int} (h : Asks g n ty) : subgroupArgs g none = .ok (householdArgs n ty) := by
  rcases h with ⟨rfl, rfl, rfl⟩ | ⟨rfl, rfl⟩ | rfl
  · rfl
  · rfl
  · rfl

theorem subgroupArgs_day {g : Subgroup} {n ty : Int} (h : Asks g n ty) (split : DaySplit) (quarters : Bool) (t : Int) : subgroupArgs g (some (dayOf split quarters t)) = .ok (dayArgs n ty split quarters t) := by
  have h1 : subgroupArgs g (some (dayOf split quarters t)) = .ok { householdArgs n ty with weekday := oneOfVal (dayOf split quarters t).weekday, quarter := (dayOf split quarters t).quarter.getD 0 } := by
    rcases h with ⟨rfl, rfl, rfl⟩ | ⟨rfl, rfl⟩ | rfl <;> rfl
  rw [h1]
  unfold dayOf dayArgs householdArgs
  by_cases hw : t / 86400000000 % 7 < 5 <;> cases split <;> cases quarters <;> simp [oneOfVal, hw]

/-- The data for the days of a subgroup. -/
theorem survey_data (V : SurveyRaw) (hV : ValidSurvey V) (g : Subgroup) (n ty r : Int) (split : DaySplit) (quarters : Bool) (hG : SurveyGroup V g n ty r split quarters) :
    ∃ (labels0 : List Nat) (pdf : List Rat) (D : DayData), SparseData (surveyLoad V) g labels0 ["active".toList, "HWH".toList, "HOH".toList] pdf split quarters D ∧
      (∃ tpm, DayFacts V (householdArgs n ty) tpm labels0 pdf) ∧ ∀ t, ∃ p, DayFacts V (dayArgs n ty split quarters t) (D (dayOf split quarters t)).1 (D (dayOf split quarters t)).2 p := by
  classical
  obtain ⟨tpm, labels0, pdf, F⟩ := day_facts V hV _ hG.given
  have hex : ∀ c : DayClass, ∃ x : SparseTPM × List Nat, ∀ t, dayOf split quarters t = c → ∃ p, DayFacts V (dayArgs n ty split quarters t) x.1 x.2 p := by
    intro c
    by_cases h : ∃ t, dayOf split quarters t = c
    · obtain ⟨t, rfl⟩ := h
      obtain ⟨tpm, labels, p, F⟩ := day_facts V hV _ (hG.days t).1
      refine ⟨(tpm, labels), fun t' ht' => ?_⟩
      have e := subgroupArgs_day hG.asks split quarters t'
      rw [ht', subgroupArgs_day hG.asks split quarters t, Except.ok.injEq] at e
      rw [← e]
      exact ⟨p, F⟩
    · exact ⟨(tpm, labels0), fun t ht => absurd ⟨t, ht⟩ h⟩
  choose D hD using hex
  refine ⟨labels0, pdf, D, ⟨⟨tpm, ?_, F.size⟩, ⟨F.pdfDist, F.pdfLength⟩, ?_, ?_, ?_⟩, ⟨tpm, F⟩, fun t => hD _ t rfl⟩
  · unfold surveyLoad
    rw [subgroupArgs_given hG.asks]
    exact F.load
  · intro t
    obtain ⟨p, Ft⟩ := hD _ t rfl
    refine ⟨(["active".toList, "HWH".toList, "HOH".toList], p), ?_⟩
    unfold surveyLoad
    rw [subgroupArgs_day hG.asks]
    exact Ft.load
  · intro t
    obtain ⟨p, Ft⟩ := hD _ t rfl
    exact Ft.validDay (hG.days t).2
  · exact ⟨by decide, by simp, by simp, by simp⟩

theorem loadTime_same (start : Int) (j : Nat) (h : (j + 1) % 144 ≠ 0) : loadTime start (j + 1) = loadTime start j := by
  unfold loadTime
  rw [show (j + 1) / 144 = j / 144 by omega]

/-- A step of a household follows a recorded change. -/
theorem step_survey (V : SurveyRaw) (a : SubgroupArgs) (d : SparseTPM × List Nat) (p : List Rat) (F : DayFacts V a d.1 d.2 p) (hz : V.AllAsleepAtStart a) (j : Nat) (u : Rat) (l m l' : Nat)
    (hm0 : j % 144 = 0 → Relabel d.2 l m) (hm1 : j % 144 ≠ 0 → m = l) (hmv : SparseMove d.1 d.2 j u m l') (hp : ∃ y, y.1 < 7 ∧ y.2.1 < 7 ∧ y.2.2 < 7 ∧ l = packed y)
    (hal : j % 144 ≠ 0 → ∃ h e, V.Recorded a h e ∧ packed (V.situation a h e (j % 144)) = l) :
    SurveyMove V a j (unpacked l) (unpacked l') ∧ ∃ h e, V.Recorded a h e ∧ packed (V.situation a h e ((j + 1) % 144)) = l' := by
  obtain ⟨y, y1, y2, y3, rfl⟩ := hp
  rw [unpacked_packed ⟨y1, y2, y3⟩]
  obtain ⟨M, q, pp, i, hM, hq, hl1, hl2, hi, hu1, hu2⟩ := hmv
  obtain ⟨h, e, hr, e1, e2⟩ := F.moveEntry j pp i M hM u hu1 hu2
  have hs0 := F.small h e (j % 144) hr (Nat.mod_lt _ (by omega))
  have hs1 := F.small h e ((j + 1) % 144) hr (Nat.mod_lt _ (by omega))
  rw [hi, Option.some.injEq] at e2
  refine ⟨⟨h, e, hr, ?_, ?_⟩, h, e, hr, e2.symm⟩
  · rw [e2, unpacked_packed hs1]
  have hlv := F.leaves (j % 144) q (Nat.mod_lt _ (by omega))
  rw [F.nTimes] at hl1 hl2
  have hkey : (∃ h e, V.Recorded a h e ∧ packed (V.situation a h e (j % 144)) = packed y) → V.situation a h e (j % 144) = y := by
    rintro ⟨h', e', hr', ey⟩
    have hml : m = packed y := by
      by_cases hj : j % 144 = 0
      · exact (hm0 hj).1 ((F.mem _).2 ⟨h', e', _, hr', Nat.mod_lt _ (by omega), ey⟩)
      · exact hm1 hj
    have := hl1 (hlv.2 ⟨h', e', hr', by rw [hq, ey, hml]⟩)
    rw [this, hq, hml, Option.some.injEq] at e1
    exact (packed_inj ⟨y1, y2, y3⟩ hs0 e1).symm
  by_cases hj : j % 144 = 0
  · by_cases hex : ∃ h e, V.Recorded a h e ∧ packed (V.situation a h e (j % 144)) = packed y
    · exact .inl (hkey hex)
    · refine .inr ⟨hj, ?_, ?_⟩
      · have h00 := F.first hz
        have hpp : pp = 0 := by
          by_cases hlq : d.1.Leaves (j % 144) q
          · rw [hl1 hlq]
            by_cases hmem : packed y ∈ d.2
            · have := (hm0 hj).1 hmem
              obtain ⟨h', e', hr', ey⟩ := hlv.1 hlq
              rw [hq, this, Option.some.injEq] at ey
              exact absurd ⟨h', e', hr', ey.symm⟩ hex
            · obtain ⟨l0, g1, g2⟩ := (hm0 hj).2 hmem
              rw [h00, Option.some.injEq] at g1
              subst g1
              obtain ⟨k1, k2⟩ := List.getElem?_eq_some_iff.1 hq
              obtain ⟨k3, k4⟩ := List.getElem?_eq_some_iff.1 g2
              exact (F.nodup.getElem_inj_iff).1 (k2.trans k4.symm)
          · exact hl2 hlq
        rw [hpp, h00, Option.some.injEq, hj] at e1
        rw [hj] at hs0
        exact packed_inj hs0 (by simp) (by rw [← e1]; rfl)
      · intro h' d' hr' hy
        exact hex ⟨h', d', hr', by rw [hj, hy]⟩
  · exact .inl (hkey (hal hj))

/-- The course of the labels of a household follows recorded changes. -/
theorem course_survey (V : SurveyRaw) (n ty : Int) (split : DaySplit) (quarters : Bool) (labels0 : List Nat) (pdf : List Rat) (tpm0 : SparseTPM) (F0 : DayFacts V (householdArgs n ty) tpm0 labels0 pdf) (D : DayData)
    (hz : ∀ t, V.AllAsleepAtStart (dayArgs n ty split quarters t))
    (hD : ∀ t, ∃ p, DayFacts V (dayArgs n ty split quarters t) (D (dayOf split quarters t)).1 (D (dayOf split quarters t)).2 p) (start : Int) (u0 : Rat) (us : List Rat) (traj : Nat → Nat)
    (hc : SparseCourse D labels0 pdf split quarters start u0 us traj) :
    (unpacked (traj 0) = (0, 0, 0) ∨ ∃ h d, V.Recorded (householdArgs n ty) h d ∧ V.situation (householdArgs n ty) h d 0 = unpacked (traj 0)) ∧
      (∀ j, j < us.length → SurveyMove V (dayArgs n ty split quarters (loadTime start j)) j (unpacked (traj j)) (unpacked (traj (j + 1)))) ∧
      ∀ j, j ≤ us.length → ∃ y, y.1 < 7 ∧ y.2.1 < 7 ∧ y.2.2 < 7 ∧ traj j = packed y := by
  obtain ⟨⟨i, l, s1, s2, s3⟩, hst⟩ := hc
  have h0 : traj 0 = 0 ∨ ∃ h d, V.Recorded (householdArgs n ty) h d ∧ packed (V.situation (householdArgs n ty) h d 0) = traj 0 := by
    obtain ⟨p, Fs⟩ := hD start
    by_cases hm : l ∈ (D (dayOf split quarters start)).2
    · right
      rw [s3.1 hm]
      have hp := F0.starts i l s2
      have hpos : pdf.getD i 0 ≠ 0 := by
        intro h0
        rw [Sampled, h0] at s1
        linarith [s1.2.1, s1.2.2]
      rw [List.getD_eq_getElem?_getD, hp, Option.getD_some] at hpos
      have : {x : Nat × Nat | V.Recorded (householdArgs n ty) x.1 x.2 ∧ packed (V.situation (householdArgs n ty) x.1 x.2 0) = l}.ncard ≠ 0 := by
        intro h
        rw [h] at hpos
        simp at hpos
      obtain ⟨⟨h, d⟩, hx⟩ := Set.nonempty_of_ncard_ne_zero this
      exact ⟨h, d, hx.1, hx.2⟩
    · left
      obtain ⟨l0, e1, e2⟩ := s3.2 hm
      rw [Fs.first (hz _), Option.some.injEq] at e1
      subst e1
      rw [Fs.first (hz _), Option.some.injEq] at e2
      exact e2.symm
  have hpk0 : ∃ y, y.1 < 7 ∧ y.2.1 < 7 ∧ y.2.2 < 7 ∧ traj 0 = packed y := by
    rcases h0 with h | ⟨h, d, hr, e⟩
    · exact ⟨(0, 0, 0), by simp, by simp, by simp, h⟩
    · have := F0.small h d 0 hr (by omega)
      exact ⟨_, this.1, this.2.1, this.2.2, e.symm⟩
  refine ⟨?_, ?_⟩
  · rcases h0 with h | ⟨h, d, hr, e⟩
    · left; rw [h]; rfl
    · right
      exact ⟨h, d, hr, by rw [← e, unpacked_packed (F0.small h d 0 hr (by omega))]⟩
  · have main : ∀ j, j < us.length → (∃ y, y.1 < 7 ∧ y.2.1 < 7 ∧ y.2.2 < 7 ∧ traj j = packed y) →
        (j % 144 ≠ 0 → ∃ h e, V.Recorded (dayArgs n ty split quarters (loadTime start j)) h e ∧ packed (V.situation (dayArgs n ty split quarters (loadTime start j)) h e (j % 144)) = traj j) →
        SurveyMove V (dayArgs n ty split quarters (loadTime start j)) j (unpacked (traj j)) (unpacked (traj (j + 1))) ∧
          (∃ h e, V.Recorded (dayArgs n ty split quarters (loadTime start j)) h e ∧ packed (V.situation (dayArgs n ty split quarters (loadTime start j)) h e ((j + 1) % 144)) = traj (j + 1)) ∧
          ∃ y, y.1 < 7 ∧ y.2.1 < 7 ∧ y.2.2 < 7 ∧ traj (j + 1) = packed y := by
      intro j hj hp hal
      obtain ⟨m, m1, m2, m3⟩ := hst j us[j] (List.getElem?_eq_getElem hj)
      obtain ⟨p, F⟩ := hD (loadTime start j)
      obtain ⟨g1, h, e, hr, g2⟩ := step_survey V _ _ p F (hz _) j us[j] (traj j) m (traj (j + 1)) m1 m2 m3 hp hal
      have := F.small h e ((j + 1) % 144) hr (Nat.mod_lt _ (by omega))
      exact ⟨g1, ⟨h, e, hr, g2⟩, _, this.1, this.2.1, this.2.2, g2.symm⟩
    have all : ∀ j, j < us.length → SurveyMove V (dayArgs n ty split quarters (loadTime start j)) j (unpacked (traj j)) (unpacked (traj (j + 1))) ∧
          (∃ h e, V.Recorded (dayArgs n ty split quarters (loadTime start j)) h e ∧ packed (V.situation (dayArgs n ty split quarters (loadTime start j)) h e ((j + 1) % 144)) = traj (j + 1)) ∧
          ∃ y, y.1 < 7 ∧ y.2.1 < 7 ∧ y.2.2 < 7 ∧ traj (j + 1) = packed y := by
      intro j
      induction j with
      | zero => exact fun hj => main 0 hj hpk0 (fun h => absurd rfl h)
      | succ j ih =>
        intro hj
        obtain ⟨-, g2, g3⟩ := ih (by omega)
        refine main (j + 1) hj g3 fun hne => ?_
        rw [loadTime_same start j hne]
        exact g2
    refine ⟨fun j hj => (all j hj).1, fun j hj => ?_⟩
    cases j with
    | zero => exact hpk0
    | succ j => exact (all j (by omega)).2.2

end Demod
