import Verif.Spec.SurveyFour
import Verif.Lemmas.SurveyInd
import Verif.Lemmas.CrestSim

/-! # Lemmas on the 4-states data of the survey -/

namespace Demod

theorem groupOf_args (n : Nat) (w : Bool) : (CrestSim.groupOf n (!w)).foldlM personArg {} = .ok (fourArgs n w) := by
  cases w <;> rfl

/-- The activity of the diaries. -/
theorem activity_up (V : SurveyRaw) (hV : ValidSurvey V) (hn0 : 0 < V.tables.rows.length) (known : List Int) (hk : ∀ p t, p < V.tables.rows.length → t < 144 → V.primary.at' p t ∈ known) :
    ∃ act, statesToActivity known V.primary = .ok act ∧ ∀ p t, p < V.tables.rows.length → t < 144 → (act.at' p t = 0 ∨ act.at' p t = 1) ∧ (act.at' p t = 1 ↔ V.Up p t) := by
  obtain ⟨nP1, nP2⟩ := hV.nP
  obtain ⟨nT1, nT2⟩ := hV.nT
  obtain ⟨A, LA, a1, -, -, a4, -⟩ := convertArray_spec intLt intLt intLt_total intLt_total (activeCode known) V.primary (by omega) (by omega) (fun p t hp ht => by
    unfold activeCode
    rw [if_pos (hk p t (by omega) (by omega))]
    exact ⟨_, rfl⟩)
  refine ⟨⟨V.primary.nP, V.primary.nT, fun p t => LA.getD (A.at' p t) 0⟩, ?_, ?_⟩
  · unfold statesToActivity
    rw [a1]
    rfl
  · intro p t hp ht
    have e := a4 p t (by omega) (by omega)
    unfold activeCode at e
    rw [if_pos (hk p t hp ht)] at e
    unfold SurveyRaw.Up
    simp only [List.getD_eq_getElem?_getD, e, Option.getD_some]
    split
    · rename_i h
      refine ⟨.inl rfl, ?_⟩
      constructor
      · intro h'; cases h'
      · rintro ⟨h1, h2⟩
        rcases h with h | h
        · exact absurd h h1
        · exact absurd h h2
    · rename_i h
      rw [not_or] at h
      exact ⟨.inr rfl, fun _ => h, fun _ => rfl⟩

/-- What the parsed data of a subgroup are: the codes `C` of the situations of the recorded households. -/
theorem four_spec (V : SurveyRaw) (hV : ValidSurvey V) (known : List Int) (hk : ∀ p t, p < V.tables.rows.length → t < 144 → V.primary.at' p t ∈ known) (n : Nat) (hn9 : n ≤ 9) (w : Bool) (hacc : AcceptedArgs (fourArgs n w))
    (hmem : ∀ h d, {p | V.Member (fourArgs n w) h d p}.ncard ≤ n) (hsome : ∃ h d, V.Recorded (fourArgs n w) h d) :
    ∃ (C : Diaries Nat) (keys : List (Nat × Nat)) (labels : List Nat) (N : Nat) (tpm : Nat → Nat → Nat → Rat),
      surveyFour V known (CrestSim.groupOf n (!w)) = .ok (⟨N, N, (List.range 144).map fun t => (List.range N).map fun i => (List.range N).map fun j => tpm t i j⟩, labels, (List.range labels.length).map (initialPdf C)) ∧
      statesToTpms C .last none = .ok (N, tpm) ∧ keys.Nodup ∧ (∀ d h, (d, h) ∈ keys ↔ V.Recorded (fourArgs n w) h d) ∧ C.nP = keys.length ∧ 0 < C.nP ∧ C.nT = 144 ∧
      (∀ p t, p < C.nP → t < 144 → C.at' p t < labels.length) ∧ (∀ i < labels.length, ∃ p t, p < C.nP ∧ t < 144 ∧ C.at' p t = i) ∧
      (∀ (r : Nat) d h, keys[r]? = some (d, h) → ∀ t < 144, labels[C.at' r t]? = some (10 * (V.homeUp (fourArgs n w) h d t).1 + (V.homeUp (fourArgs n w) h d t).2)) ∧
      (∀ h d t, V.Recorded (fourArgs n w) h d → t < 144 → (V.homeUp (fourArgs n w) h d t).1 ≤ n ∧ (V.homeUp (fourArgs n w) h d t).2 ≤ n) ∧
      labels.Pairwise (· < ·) ∧ (∀ y, y ∈ labels ↔ ∃ h d t, V.Recorded (fourArgs n w) h d ∧ t < 144 ∧ 10 * (V.homeUp (fourArgs n w) h d t).1 + (V.homeUp (fourArgs n w) h d t).2 = y) := by
  obtain ⟨a, ha⟩ : ∃ a, a = fourArgs n w := ⟨_, rfl⟩
  have hfil : a.full = true ∧ a.removeMissing = true ∧ a.identical = true := by rw [ha]; exact ⟨rfl, rfl, rfl⟩
  rw [← ha] at hacc hmem hsome ⊢
  obtain ⟨nP1, nP2⟩ := hV.nP
  obtain ⟨nT1, nT2⟩ := hV.nT
  obtain ⟨h0, d0, p0, r0, hp0, hq0⟩ := hsome
  have hn0 : 0 < V.tables.rows.length := by
    have := (List.getElem?_eq_some_iff.1 hp0).1
    omega
  obtain ⟨occ, o1, o2, o3, hocc⟩ := occ_home V hV hn0
  obtain ⟨act, v1, hact⟩ := activity_up V hV hn0 known hk
  obtain ⟨mask, m1, m2, m3⟩ := C98_mask_partial V.tables a hV.missing hV.persons hacc (.inl hfil)
  obtain ⟨rows, hrows⟩ : ∃ rows, rows = maskRows mask := ⟨_, rfl⟩
  have nd : rows.Nodup := hrows ▸ maskRows_nodup mask
  have hr : ∀ p, p ∈ rows ↔ ∃ r, V.tables.rows[p]? = some r ∧ BelongsTo V.tables a r := by
    intro p
    rw [hrows, mem_maskRows]
    constructor
    · intro h
      have hlt : p < V.tables.rows.length := by rw [← m2]; exact (List.getElem?_eq_some_iff.1 h).1
      exact ⟨_, List.getElem?_eq_getElem hlt, (m3 p _ (List.getElem?_eq_getElem hlt)).1 h⟩
    · rintro ⟨r, r1, r2⟩
      exact (m3 p r r1).2 r2
  have hrlt : ∀ p ∈ rows, p < V.tables.rows.length := by
    intro p hp
    obtain ⟨r, r1, -⟩ := (hr p).1 hp
    exact (List.getElem?_eq_some_iff.1 r1).1
  have hget : ∀ p, p < rows.length → rows.getD p 0 < V.tables.rows.length := by
    intro p hp
    apply hrlt
    rw [List.getD_eq_getElem?_getD, List.getElem?_eq_getElem hp, Option.getD_some]
    exact List.getElem_mem _
  obtain ⟨HH, hHH⟩ : ∃ HH, HH = rows.map fun p => (V.tables.rows.map (·.hh)).getD p 0 := ⟨_, rfl⟩
  obtain ⟨DD, hDD⟩ : ∃ DD, DD = rows.map fun p => (V.tables.rows.map fun r => r.day.toNat).getD p 0 := ⟨_, rfl⟩
  have hcount : ∀ h d (f : Nat → Bool) (F : Nat → Prop), (∀ p, p < V.tables.rows.length → (f p = true ↔ F p)) →
      ((members rows.length HH DD h d).filter fun k => f (rows.getD k 0)).length = {p | V.Member a h d p ∧ F p}.ncard := by
    intro h d f F hf
    rw [hHH, hDD]
    exact select_count V hV a rows nd hr h d f F hf
  have hcount1 : ∀ h d, (members rows.length HH DD h d).length = {p | V.Member a h d p}.ncard := by
    intro h d
    have := hcount h d (fun _ => true) (fun _ => True) (fun _ _ => by simp)
    simpa using this
  obtain ⟨X, hX⟩ : ∃ X : Diaries Nat, X = selectRows rows (fourStates occ fun p t => (act.at' p t).toNat) := ⟨_, rfl⟩
  have hXP : X.nP = rows.length := by rw [hX]; rfl
  have hXT : X.nT = 144 := by rw [hX]; change occ.nT = 144; omega
  have hXat : ∀ p, p < rows.length → ∀ t < 144, X.at' p t = 10 * (if occ.at' (rows.getD p 0) t then 1 else 0) + 1 * (if decide (act.at' (rows.getD p 0) t = 1) then 1 else 0) := by
    intro p hp t ht
    rw [hX]
    change 10 * (if occ.at' (rows.getD p 0) t then 1 else 0) + 1 * (act.at' (rows.getD p 0) t).toNat = _
    rcases (hact _ t (hget p hp) ht).1 with h | h <;> rw [h] <;> rfl
  obtain ⟨Y, keys, y1, y2, y3, y4, y5, y6⟩ := C93_group X HH DD (by rw [hHH, List.length_map, hXP]) (by rw [hDD, List.length_map, hXP])
  rw [hXP] at y5 y6
  have yT : Y.nT = 144 := by omega
  have hgroup : groupHouseholds4 X HH DD = .ok Y := by
    unfold groupHouseholds4
    rw [if_neg (by rw [hHH, hDD, List.length_map, List.length_map, hXP]; simp), if_neg ?_, y1]
    rw [not_not, List.all_eq_true]
    intro s hs
    obtain ⟨p, t, hp, ht, e⟩ := (Diaries.mem_flat _ s).mp hs
    rw [← e, hXat p (by omega) t (by omega)]
    split <;> split <;> rfl
  have ndk : keys.Nodup := y4.imp fun {x y} h => by
    rintro rfl
    omega
  have hfin : ∀ h d, {p | V.Member a h d p}.Finite := by
    intro h d
    refine (Set.finite_lt_nat V.tables.rows.length).subset ?_
    rintro p ⟨r, r1, -⟩
    exact (List.getElem?_eq_some_iff.1 r1).1
  have hkeys : ∀ d h, (d, h) ∈ keys ↔ V.Recorded a h d := by
    intro d h
    rw [y5, ← List.length_pos_iff, hcount1, Set.ncard_pos (hfin h d)]
    rfl
  have hsmall : ∀ h d t, (V.homeUp a h d t).1 ≤ n ∧ (V.homeUp a h d t).2 ≤ n := by
    intro h d t
    constructor
    · exact le_trans (Set.ncard_le_ncard (fun p hp => hp.1) (hfin h d)) (hmem h d)
    · exact le_trans (Set.ncard_le_ncard (fun p hp => hp.1) (hfin h d)) (hmem h d)
  have hYat : ∀ (r : Nat) d h, keys[r]? = some (d, h) → ∀ t < 144, Y.at' r t = 10 * (V.homeUp a h d t).1 + (V.homeUp a h d t).2 := by
    intro r d h hk t ht
    have e1 : {p | V.Member a h d p ∧ V.AtHome p t}.ncard = ((members rows.length HH DD h d).filter fun k => occ.at' (rows.getD k 0) t).length := by
      rw [← hcount h d (fun p => occ.at' p t) _ (fun p hp => hocc p hp t ht)]
    have e2 : {p | V.Member a h d p ∧ V.Up p t}.ncard = ((members rows.length HH DD h d).filter fun k => decide (act.at' (rows.getD k 0) t = 1)).length := by
      rw [← hcount h d (fun p => decide (act.at' p t = 1)) _ (fun p hp => by rw [decide_eq_true_eq]; exact (hact p t hp ht).2)]
    unfold SurveyRaw.homeUp
    simp only [e1, e2]
    rw [y6 r d h hk t]
    conv_rhs => rw [← one_mul (List.length (List.filter (fun k => decide (act.at' (rows.getD k 0) t = 1)) (members rows.length HH DD h d)))]
    rw [← sum_filter_count, ← sum_filter_count, ← List.sum_map_add]
    congr 1
    apply List.map_congr_left
    intro p hp
    have hp : p < rows.length := by
      unfold members at hp
      exact List.mem_range.1 (List.mem_filter.1 hp).1
    rw [hXat p hp t ht]
    split <;> split <;> rfl
  have hYpos : 0 < Y.nP := by
    rw [y2]
    exact List.length_pos_of_mem ((hkeys d0 h0).2 ⟨p0, r0, hp0, hq0⟩)
  have hYkey : ∀ r, r < Y.nP → ∃ d h, keys[r]? = some (d, h) := by
    intro r hr
    exact ⟨keys[r].1, keys[r].2, List.getElem?_eq_getElem (by omega)⟩
  obtain ⟨C, labels, c1, c2, c3, c4, c5, c6, c7⟩ := convertArray_spec natLt natLt natLt_total natLt_total some Y hYpos (by omega) (fun p t _ _ => ⟨_, rfl⟩)
  obtain ⟨N, tpm, t1, -⟩ := C21_total C .last none (by omega) (by omega) (by decide) (fun _ h => by cases h)
  refine ⟨C, keys, labels, N, tpm, ?_, t1, ndk, hkeys, by omega, by omega, by omega, ?_, ?_, ?_, fun h d t _ _ => hsmall h d t, c5.imp fun h => by simpa [natLt] using h, ?_⟩
  · unfold surveyFour
    simp only [bind, Except.bind, o1, v1]
    rw [groupOf_args, ← ha]
    simp only [m1]
    rw [← hrows, ← hHH, ← hDD, ← hX, hgroup]
    simp only [c1, t1, yT]
  · intro p t hp ht
    exact (List.getElem?_eq_some_iff.1 (c4 p t (by omega) (by omega))).1
  · intro i hi
    obtain ⟨p, t, hp, ht, e⟩ := (c7 labels[i]).1 (List.getElem_mem _)
    refine ⟨p, t, by omega, by omega, ?_⟩
    have := c4 p t hp ht
    rw [e] at this
    obtain ⟨q1, q2⟩ := List.getElem?_eq_some_iff.1 this
    exact (List.Nodup.getElem_inj_iff c6).1 q2
  · intro r d h hk t ht
    have hr : r < Y.nP := by rw [y2]; exact (List.getElem?_eq_some_iff.1 hk).1
    rw [c4 r t hr (by omega), hYat r d h hk t ht]
  · intro y
    rw [c7]
    constructor
    · rintro ⟨r, t, hr, ht, e⟩
      obtain ⟨d, h, hk⟩ := hYkey r hr
      refine ⟨h, d, t, (hkeys d h).1 (List.mem_of_getElem? hk), by omega, ?_⟩
      rw [← hYat r d h hk t (by omega)]
      exact Option.some.inj e
    · rintro ⟨h, d, t, hrec, ht, e⟩
      obtain ⟨r, hr, hk⟩ := List.mem_iff_getElem.1 ((hkeys d h).2 hrec)
      have hk : keys[r]? = some (d, h) := by rw [List.getElem?_eq_getElem hr, hk]
      exact ⟨r, t, by omega, by omega, by rw [hYat r d h hk t ht, e]⟩

/-- The distributions that the survey gives. -/
noncomputable def fourData (V : SurveyRaw) (known : List Int) : CrestSim.CrestData where
  load := surveyFour V known
  row := fun n w t i => inOrder n (V.fourChange (fourArgs n w) (slotsOf t).1 (slotsOf t).2 (i / (n + 1), i % (n + 1)))
  start := fun n w => inOrder n (V.fourStart (fourArgs n w))

theorem labelsOf_sorted (n : Nat) (hn : n ≤ 9) : (CrestSim.labelsOf n).Pairwise (· < ·) := by
  have : ∀ n ≤ 9, (CrestSim.labelsOf n).Pairwise (· < ·) := by decide +kernel
  exact this n hn

theorem grid_code (n m k : Nat) (hk : k ≤ n) : (m * (n + 1) + k) / (n + 1) = m ∧ (m * (n + 1) + k) % (n + 1) = k := by
  constructor
  · rw [Nat.mul_comm, Nat.mul_add_div (by omega), Nat.div_eq_of_lt (by omega), Nat.add_zero]
  · rw [Nat.mul_comm, Nat.mul_add_mod, Nat.mod_eq_of_lt (by omega)]

/-- The data for households of `n` residents. -/
theorem four_has (V : SurveyRaw) (hV : ValidSurvey V) (known : List Int) (hk : ∀ p t, p < V.tables.rows.length → t < 144 → V.primary.at' p t ∈ known) (n : Nat) (hn9 : n ≤ 9) (hG : FourGroup V n) : CrestSim.Has (fourData V known) n := by
  intro d
  obtain ⟨w, hw⟩ : ∃ w, w = !d := ⟨_, rfl⟩
  have hd : d = !w := by rw [hw, Bool.not_not]
  rw [hd, Bool.not_not]
  clear hw hd
  obtain ⟨h0, d0, s0, hrec0, -, -⟩ := hG.every w 0 (by omega) 0 (by omega)
  obtain ⟨C, keys, labels, N, tpm, e1, e2, nd, hkeys, cP, cpos, cT, clt, call, hlab, hsmall, hsort, hmemlab⟩ := four_spec V hV known hk n hn9 w (hG.accepted w) (hG.members w) ⟨h0, d0, hrec0⟩
  obtain ⟨a, ha⟩ : ∃ a, a = fourArgs n w := ⟨_, rfl⟩
  have hev : ∀ m ≤ n, ∀ k ≤ n, ∃ h d t, V.Recorded (fourArgs n w) h d ∧ t < 144 ∧ V.homeUp (fourArgs n w) h d t = (m, k) := hG.every w
  rw [← ha] at hkeys hlab hsmall hmemlab hev
  have hLmem : ∀ y, y ∈ CrestSim.labelsOf n ↔ ∃ m ≤ n, ∃ k ≤ n, 10 * m + k = y := by
    intro y
    unfold CrestSim.labelsOf
    simp only [List.mem_flatMap, List.mem_range, List.mem_map]
    constructor
    · rintro ⟨m, h1, k, h2, e⟩; exact ⟨m, by omega, k, by omega, e⟩
    · rintro ⟨m, h1, k, h2, e⟩; exact ⟨m, by omega, k, by omega, e⟩
  have hL : labels = CrestSim.labelsOf n := by
    have s2 := labelsOf_sorted n hn9
    refine List.Perm.eq_of_pairwise (le := fun x y : Nat => x < y) (fun x y _ _ h1 h2 => by omega) hsort s2 ((List.perm_ext_iff_of_nodup (hsort.imp fun h => Nat.ne_of_lt h) (s2.imp fun h => Nat.ne_of_lt h)).2 fun y => ?_)
    rw [hmemlab, hLmem]
    constructor
    · rintro ⟨h, d, t, hr, ht, e⟩
      exact ⟨_, (hsmall h d t hr ht).1, _, (hsmall h d t hr ht).2, e⟩
    · rintro ⟨m, hm, k, hk, e⟩
      obtain ⟨h, d, t, hr, ht, x⟩ := hev m hm k hk
      exact ⟨h, d, t, hr, ht, by rw [x]; exact e⟩
  have hLlen : labels.length = (n + 1) ^ 2 := by rw [hL, CrestSim.labelsOf_length]
  have hNmax : N = maxState C + 1 := by
    unfold statesToTpms at e2
    rw [if_neg (by omega), if_neg (by omega)] at e2
    simp only [Option.getD_none] at e2
    rw [if_neg (by omega)] at e2
    simp only [bind, Except.bind] at e2
    split at e2
    · cases e2
    · simp only [Except.ok.injEq, Prod.mk.injEq] at e2
      exact e2.1.symm
  have hN : N = (n + 1) ^ 2 := by
    have hp : 0 < (n + 1) ^ 2 := by positivity
    have h1 := maxState_lt C ((n + 1) ^ 2) hp (fun p t hp ht => by rw [← hLlen]; exact clt p t hp (by omega))
    obtain ⟨p, t, hp', ht, e⟩ := call ((n + 1) ^ 2 - 1) (by omega)
    have h2 := le_maxState C p t hp' (by omega)
    omega
  subst hN
  -- codes and situations
  have hcode : ∀ (r : Nat) d h, keys[r]? = some (d, h) → ∀ t < 144, ∀ m k, m ≤ n → k ≤ n → (C.at' r t = m * (n + 1) + k ↔ V.homeUp a h d t = (m, k)) := by
    intro r d h hr t ht m k hm hk
    have h1 := hlab r d h hr t ht
    obtain ⟨b1, b2⟩ := hsmall h d t ((hkeys d h).1 (List.mem_of_getElem? hr)) ht
    have h2 : labels[(V.homeUp a h d t).1 * (n + 1) + (V.homeUp a h d t).2]? = some (10 * (V.homeUp a h d t).1 + (V.homeUp a h d t).2) := by
      rw [hL]
      exact CrestSim.grid_get n (fun m k => 10 * m + k) _ _ b1 b2
    have e : C.at' r t = (V.homeUp a h d t).1 * (n + 1) + (V.homeUp a h d t).2 := by
      obtain ⟨l1, v1⟩ := List.getElem?_eq_some_iff.1 h1
      obtain ⟨l2, v2⟩ := List.getElem?_eq_some_iff.1 h2
      exact (List.Nodup.getElem_inj_iff (hsort.imp fun h => Nat.ne_of_lt h)).1 (v1.trans v2.symm)
    rw [e]
    constructor
    · intro h'
      obtain ⟨g1, g2⟩ := grid_code n (V.homeUp a h d t).1 (V.homeUp a h d t).2 b2
      obtain ⟨g3, g4⟩ := grid_code n m k hk
      rw [h'] at g1 g2
      exact Prod.ext (g1.symm.trans g3) (g2.symm.trans g4)
    · intro h'
      rw [h']
  have hAll : C.nP = {x : Nat × Nat | V.Recorded a x.1 x.2}.ncard := by
    have := ncard_keys V a keys nd hkeys _ cP (fun _ => true) (fun _ _ => True) (fun _ _ _ _ => by simp)
    simpa using this
  have hOne : ∀ t < 144, ∀ m k, m ≤ n → k ≤ n → howMany C (fun p => decide (C.at' p t = m * (n + 1) + k)) = {x : Nat × Nat | V.Recorded a x.1 x.2 ∧ V.homeUp a x.1 x.2 t = (m, k)}.ncard := by
    intro t ht m k hm hk'
    exact ncard_keys V a keys nd hkeys _ cP _ (fun h d => V.homeUp a h d t = (m, k)) fun r d h hr => by
      rw [decide_eq_true_eq]
      exact hcode r d h hr t ht m k hm hk'
  have hTwo : ∀ t < 144, ∀ t' < 144, ∀ m k m' k', m ≤ n → k ≤ n → m' ≤ n → k' ≤ n → howMany C (fun p => decide (C.at' p t = m * (n + 1) + k ∧ C.at' p t' = m' * (n + 1) + k')) =
      {x : Nat × Nat | V.Recorded a x.1 x.2 ∧ V.homeUp a x.1 x.2 t = (m, k) ∧ V.homeUp a x.1 x.2 t' = (m', k')}.ncard := by
    intro t ht t' ht' m k m' k' hm hk hm' hk'
    exact ncard_keys V a keys nd hkeys _ cP _ (fun h d => V.homeUp a h d t = (m, k) ∧ V.homeUp a h d t' = (m', k')) fun r d h hr => by
      rw [decide_eq_true_eq, hcode r d h hr t ht m k hm hk, hcode r d h hr t' ht' m' k' hm' hk']
  have hentry : ∀ t < 144, ∀ m k m' k', m ≤ n → k ≤ n → m' ≤ n → k' ≤ n → tpm t (m * (n + 1) + k) (m' * (n + 1) + k') = V.fourChange a (slotsOf t).1 (slotsOf t).2 (m, k) (m', k') := by
    intro t ht m k m' k' hm hk hm' hk'
    have hlt : ∀ m k, m ≤ n → k ≤ n → m * (n + 1) + k < (n + 1) ^ 2 := by
      intro m k hm hk
      have : m * (n + 1) ≤ n * (n + 1) := Nat.mul_le_mul_right _ hm
      have : (n + 1) ^ 2 = n * (n + 1) + (n + 1) := by ring
      omega
    obtain ⟨-, q2, q3⟩ := C21_tpm C .last none _ tpm e2 t (m * (n + 1) + k) (by omega) (hlt m k hm hk)
    have hsrc : sourceTime C .last t = (slotsOf t).2 ∧ (slotsOf t).2 < 144 ∧ (slotsOf t).1 < 144 ∧ (slotsOf t).2 ≠ 0 ∧ (slotsOf t).1 = (slotsOf t).2 - 1 := by
      unfold sourceTime slotsOf
      by_cases h : t = 0
      · simp [h, cT]
      · simp [h]; omega
    obtain ⟨s1, s2, s3, s4, s5⟩ := hsrc
    have hbef : ∀ p, C.before false p (slotsOf t).2 = C.at' p (slotsOf t).1 := by
      intro p
      unfold Diaries.before
      rw [if_neg s4, s5]
    simp only [s1, hbef] at q2 q3
    rw [hOne _ s3 m k hm hk] at q2 q3
    unfold SurveyRaw.fourChange
    by_cases hz : {q : Nat × Nat | V.Recorded a q.1 q.2 ∧ V.homeUp a q.1 q.2 (slotsOf t).1 = (m, k)}.ncard = 0
    · rw [if_pos hz, q3 _ (hlt m' k' hm' hk') hz]
      have : m' * (n + 1) + k' = m * (n + 1) + k ↔ (m', k') = (m, k) := by
        constructor
        · intro h'
          obtain ⟨g1, g2⟩ := grid_code n m' k' hk'
          obtain ⟨g3, g4⟩ := grid_code n m k hk
          rw [h'] at g1 g2
          exact Prod.ext (g1.symm.trans g3) (g2.symm.trans g4)
        · rintro h'
          cases h'
          rfl
      simp only [this]
    · rw [if_neg hz, q2 _ (hlt m' k' hm' hk') (Nat.pos_of_ne_zero hz), hTwo _ s3 _ s2 m k m' k' hm hk hm' hk']
  have hstart : (List.range labels.length).map (initialPdf C) = inOrder n (V.fourStart a) := by
    refine CrestSim.grid_ext n _ _ (by simp [hLlen]) fun m hm k hk' => ?_
    have : m * (n + 1) + k < labels.length := by
      have h1 := CrestSim.grid_get n (fun m k => 10 * m + k) m k hm hk'
      rw [hL]
      exact (List.getElem?_eq_some_iff.1 h1).1
    rw [List.getElem?_map, List.getElem?_range this, Option.map_some, Option.some.injEq]
    unfold initialPdf SurveyRaw.fourStart
    rw [← hAll, ← hOne 0 (by omega) m k hm hk']
    congr 2
    unfold Diaries.col howMany
    rw [List.count_eq_countP, List.countP_map]
    apply List.countP_congr
    intro p _
    simp
  have hmats : ((List.range 144).map fun t => (List.range ((n + 1) ^ 2)).map fun i => (List.range ((n + 1) ^ 2)).map fun j => tpm t i j) = CrestSim.matsOf (fourData V known) n w := by
    unfold CrestSim.matsOf
    apply List.map_congr_left
    intro t ht
    apply List.map_congr_left
    intro i hi
    rw [List.mem_range] at ht hi
    obtain ⟨m, hm, k, hk', rfl⟩ := CrestSim.idx_split n i hi
    change _ = inOrder n (V.fourChange (fourArgs n w) (slotsOf t).1 (slotsOf t).2 ((m * (n + 1) + k) / (n + 1), (m * (n + 1) + k) % (n + 1)))
    obtain ⟨g1, g2⟩ := grid_code n m k hk'
    rw [g1, g2, ← ha]
    refine CrestSim.grid_ext n _ _ (by simp) fun m' hm' k'' hk'' => ?_
    have : m' * (n + 1) + k'' < (n + 1) ^ 2 := by
      have h1 := CrestSim.grid_get n (fun m k => 10 * m + k) m' k'' hm' hk''
      rw [← hLlen, hL]
      exact (List.getElem?_eq_some_iff.1 h1).1
    rw [List.getElem?_map, List.getElem?_range this, Option.map_some, hentry t ht m k m' k'' hm hk' hm' hk'']
  have hst' : (fourData V known).start n w = (List.range labels.length).map (initialPdf C) := by rw [hstart, ha]; rfl
  refine ⟨?_, ?_, ?_, ?_⟩
  · change surveyFour V known _ = _
    rw [e1, hmats, hst', hL]
  · rw [← hmats]
    refine ⟨by simp, fun mat hmat => ?_⟩
    obtain ⟨t, ht, rfl⟩ := List.mem_map.1 hmat
    rw [List.mem_range] at ht
    refine ⟨by simp, fun row hrow => ?_⟩
    obtain ⟨i, hi', rfl⟩ := List.mem_map.1 hrow
    rw [List.mem_range] at hi'
    obtain ⟨q1, q2⟩ := (C21_tpm C .last none _ tpm e2 t i (by omega) hi').1
    refine ⟨by simp, ?_, q2⟩
    intro x hx
    obtain ⟨j, -, rfl⟩ := List.mem_map.1 hx
    exact q1 j
  · rw [hst']
    constructor
    · intro x hx
      obtain ⟨i, -, rfl⟩ := List.mem_map.1 hx
      unfold initialPdf
      positivity
    · unfold initialPdf
      rw [sum_div]
      have h2 : ((List.range labels.length).map fun i => ((C.col 0).count i : Rat)).sum = (C.nP : Rat) := by
        have := sumTo_countP labels.length (C.col 0) (fun _ => true) id (by
          intro x hx _
          obtain ⟨p, hp, rfl⟩ := List.mem_map.1 hx
          exact clt p 0 (List.mem_range.1 hp) (by omega))
        rw [List.countP_true, show (C.col 0).length = C.nP by simp [Diaries.col]] at this
        rw [← this]
        unfold sumTo
        congr 1
      rw [h2]
      have : (C.nP : Rat) ≠ 0 := by exact_mod_cast (by omega : C.nP ≠ 0)
      exact div_self this
  · rw [hst']
    simp [hLlen]

end Demod
