import Verif.Lemmas.Graph

/-! # The duration and graph metrics (C69, C70) -/

namespace Demod

section
variable {σ : Type} [DecidableEq σ]

/-! ## C69: the distribution of the durations -/

/-- Full statement of C69: for all pairs of patterns over the same (positive) number of time steps the
metric returns, for every state that occurs in one of them, the documented distance of the
distributions of its durations. -/
def C69_full : Prop :=
  ∀ (A B : Diaries Nat), A.nT = B.nT → 0 < B.nT → ∃ out, stateDurationMetric A B true = .ok out ∧
    ∀ s, (Occurs A s ∨ Occurs B s) → (s, [documentedDistance A B s]) ∈ out

/-- When the same states occur in both sets of patterns, and neither consists of constant patterns
only, the metric has exactly one entry per state. It holds, for every duration from 0 to the
number of measured time steps, the absolute difference of the cumulative shares, or the mean of
these. -/
theorem C69_value_partial (A B : Diaries σ) (average : Bool) (hA : SomeChange A) (hB : SomeChange B) (hT : A.nT ≤ B.nT)
    (hs : ∀ s, Occurs A s ↔ Occurs B s) :
    ∃ out, stateDurationMetric A B average = .ok out ∧ (out.map (·.1)).Nodup ∧ (∀ s, s ∈ out.map (·.1) ↔ Occurs B s) ∧
      ∀ q ∈ out, q.2 = if average = true
        then [((List.range (B.nT + 1)).map fun d => |shareUpTo A q.1 d - shareUpTo B q.1 d|).sum / (B.nT + 1)]
        else (List.range (B.nT + 1)).map fun d => |shareUpTo A q.1 d - shareUpTo B q.1 d| := by
  obtain ⟨dA, eA, kA, gA, _⟩ := durationsByStates_spec A hA
  obtain ⟨dB, eB, kB, gB, _⟩ := durationsByStates_spec B hB
  unfold stateDurationMetric
  rw [eA, eB]
  have hkeys : ∀ s, s ∈ (dA.map (·.1) ++ dB.map (·.1)).dedup ↔ Occurs B s := by
    intro s
    rw [List.mem_dedup, List.mem_append, kA, kB, hs]
    exact or_self_iff
  refine ⟨_, mapM_ok_map _ _ (fun s => (s, if average = true
        then [((List.range (B.nT + 1)).map fun d => |shareUpTo A s d - shareUpTo B s d|).sum / (B.nT + 1)]
        else (List.range (B.nT + 1)).map fun d => |shareUpTo A s d - shareUpTo B s d|)) ?_, ?_, ?_, ?_⟩
  · intro s h
    have hb := (hkeys s).1 h
    rw [durationErr_ok A B hT dA dB gA gB s ((hs s).2 hb) hb]
    show Except.ok _ = _
    cases average <;> simp
  · rw [List.map_map]
    show (List.map id _).Nodup
    rw [List.map_id]
    exact List.nodup_dedup _
  · intro s
    rw [List.map_map]
    show s ∈ List.map id _ ↔ _
    rw [List.map_id]
    exact hkeys s
  · intro q hq
    obtain ⟨s, _, rfl⟩ := List.mem_map.1 hq
    rfl

/-- The mean is taken over one value more than documented: the returned distance is the documented one
times `T / (T + 1)`. -/
theorem C69_documented_partial (A B : Diaries σ) (hA : SomeChange A) (hB : SomeChange B) (hT : A.nT ≤ B.nT)
    (hs : ∀ s, Occurs A s ↔ Occurs B s) :
    ∃ out, stateDurationMetric A B true = .ok out ∧ (out.map (·.1)).Nodup ∧ (∀ s, s ∈ out.map (·.1) ↔ Occurs B s) ∧
      ∀ q ∈ out, q.2 = [documentedDistance A B q.1 * (B.nT / (B.nT + 1))] := by
  obtain ⟨out, h1, h2, h3, h4⟩ := C69_value_partial A B true hA hB hT hs
  refine ⟨out, h1, h2, h3, ?_⟩
  intro q hq
  rw [h4 q hq, if_pos rfl]
  have a0 : 0 < A.nT := by obtain ⟨_, t, _, h, _⟩ := hA; omega
  have b0 : 0 < B.nT := by omega
  have hb : (B.nT : Rat) ≠ 0 := by positivity
  rw [List.range_succ_eq_map, List.map_cons, List.sum_cons, shareUpTo_zero A a0, shareUpTo_zero B b0, List.map_map]
  unfold documentedDistance
  congr 1
  rw [sub_self, abs_zero, zero_add]
  show _ = (List.map _ _).sum / _ * _
  rw [div_mul_div_comm, mul_comm (B.nT : Rat), mul_div_mul_right _ _ hb]
  rfl

/-- The returned values are a symmetric distance below 1, which is 0 exactly when the durations of the
state have the same distribution. -/
theorem C69_distance_partial (A B : Diaries σ) (hA : SomeChange A) (hB : SomeChange B) (hT : A.nT = B.nT)
    (hs : ∀ s, Occurs A s ↔ Occurs B s) :
    ∃ ab ba, stateDurationMetric A B true = .ok ab ∧ stateDurationMetric B A true = .ok ba ∧
      ∀ s, Occurs A s → ∃ v : Rat, (s, [v]) ∈ ab ∧ (s, [v]) ∈ ba ∧ 0 ≤ v ∧ v < 1 ∧
        (v = 0 ↔ ∀ d, shareAt A s d = shareAt B s d) := by
  obtain ⟨ab, h1, _, k1, v1⟩ := C69_value_partial A B true hA hB (le_of_eq hT) hs
  obtain ⟨ba, h2, _, k2, v2⟩ := C69_value_partial B A true hB hA (le_of_eq hT.symm) fun s => (hs s).symm
  refine ⟨ab, ba, h1, h2, ?_⟩
  intro s ha
  have a0 : 0 < A.nT := by obtain ⟨_, t, _, h, _⟩ := hA; omega
  have b0 : 0 < B.nT := by omega
  have hb := (hs s).1 ha
  obtain ⟨q1, m1, e1⟩ := List.mem_map.1 ((k1 s).2 hb)
  obtain ⟨q2, m2, e2⟩ := List.mem_map.1 ((k2 s).2 ha)
  have w1 := v1 q1 m1
  have w2 := v2 q2 m2
  rw [if_pos rfl, e1] at w1
  rw [if_pos rfl, e2] at w2
  have hpos : (0 : Rat) < (B.nT : Rat) + 1 := by positivity
  have hnn : ∀ d, d < B.nT + 1 → 0 ≤ |shareUpTo A s d - shareUpTo B s d| := fun d _ => abs_nonneg _
  refine ⟨((List.range (B.nT + 1)).map fun d => |shareUpTo A s d - shareUpTo B s d|).sum / (B.nT + 1), ?_, ?_, ?_, ?_, ?_⟩
  · rw [← w1, ← e1]; exact m1
  · rw [hT] at w2
    simp only [abs_sub_comm (shareUpTo B s _)] at w2
    rw [← w2, ← e2]; exact m2
  · exact div_nonneg (sum_range_nonneg _ _ hnn) (le_of_lt hpos)
  · rw [div_lt_one hpos, List.range_succ, List.map_append, List.sum_append]
    simp only [List.map_cons, List.map_nil, List.sum_cons, List.sum_nil, add_zero]
    rw [shareUpTo_top A a0 s ha B.nT (le_of_eq hT), shareUpTo_top B b0 s hb B.nT (le_refl _), sub_self, abs_zero, add_zero]
    have := sum_range_le B.nT (fun d => |shareUpTo A s d - shareUpTo B s d|) (fun _ => 1) fun d _ => by
      have := shareUpTo_bounds A s d
      have := shareUpTo_bounds B s d
      rw [abs_le]; constructor <;> linarith
    rw [sum_range_const, mul_one] at this
    linarith
  · rw [div_eq_zero_iff, or_iff_left (ne_of_gt hpos)]
    constructor
    · intro hz
      have heq : ∀ d, shareUpTo A s d = shareUpTo B s d := by
        intro d
        by_cases hd : d < B.nT + 1
        · have h3 := single_le_sum_range (B.nT + 1) (fun d => |shareUpTo A s d - shareUpTo B s d|) hnn d hd
          rw [hz] at h3
          have := abs_nonpos_iff.1 h3
          linarith
        · rw [shareUpTo_top A a0 s ha d (by omega), shareUpTo_top B b0 s hb d (by omega)]
      intro d
      cases d with
      | zero =>
        have z : ∀ D : Diaries σ, 0 < D.nT → shareAt D s 0 = 0 := by
          intro D h0
          unfold shareAt
          rw [List.count_eq_zero.2 fun h => absurd (runsOf_pos D h0 s 0 h) (lt_irrefl _)]
          simp
        rw [z A a0, z B b0]
      | succ d =>
        have := shareUpTo_succ A s d
        have := shareUpTo_succ B s d
        have := heq d
        have := heq (d + 1)
        linarith
    · intro he
      have heq : ∀ d, shareUpTo A s d = shareUpTo B s d := by
        intro d
        induction d with
        | zero => rw [shareUpTo_zero A a0, shareUpTo_zero B b0]
        | succ d ih => rw [shareUpTo_succ, shareUpTo_succ, ih, he]
      have : (List.range (B.nT + 1)).map (fun d => |shareUpTo A s d - shareUpTo B s d|) = (List.range (B.nT + 1)).map fun _ => (0 : Rat) := by
        apply List.map_congr_left
        intro d _
        rw [heq d, sub_self, abs_zero]
      rw [this, sum_range_const, mul_zero]

/-- A state that occurs in one of the two data sets only makes the whole call fail. -/
theorem C69_missing_state (A B : Diaries σ) (average : Bool) (hA : SomeChange A) (hB : SomeChange B) (hT : A.nT ≤ B.nT)
    (hs : ∃ s, (Occurs A s ∧ ¬ Occurs B s) ∨ (Occurs B s ∧ ¬ Occurs A s)) :
    stateDurationMetric A B average = .error .keyError := by
  obtain ⟨dA, eA, kA, gA, nA⟩ := durationsByStates_spec A hA
  obtain ⟨dB, eB, kB, gB, nB⟩ := durationsByStates_spec B hB
  unfold stateDurationMetric
  rw [eA, eB]
  apply mapM_error
  · intro s _
    by_cases h : Occurs A s ∧ Occurs B s
    · right
      rw [durationErr_ok A B hT dA dB gA gB s h.1 h.2]
      exact ⟨_, rfl⟩
    · left
      rw [durationErr_missing A B hT dA dB gA nA nB s h]
      rfl
  · obtain ⟨s, h⟩ := hs
    refine ⟨s, ?_, ?_⟩
    · rw [List.mem_dedup, List.mem_append, kA, kB]
      rcases h with h | h
      · exact .inl h.1
      · exact .inr h.1
    · rw [durationErr_missing A B hT dA dB gA nA nB s (by tauto)]
      rfl

/-- Patterns that are all constant make the call fail as well. -/
theorem C69_all_constant (A B : Diaries σ) (average : Bool) (hA : ¬ SomeChange A) :
    stateDurationMetric A B average = .error .indexError := by
  have h0 : transitionIndices A = [] := by
    rw [List.eq_nil_iff_forall_not_mem]
    rintro ⟨p, t⟩ h
    obtain ⟨hp, hx⟩ := (mem_transitionIndices A p t).1 h
    have hc : changeTimes A false p = [] := by
      rw [← const_iff, List.all_eq_true]
      intro t ht
      by_contra hc
      exact hA ⟨p, t, hp, List.mem_range.1 ht, by simpa using hc⟩
    rw [hc] at hx
    cases hx
  have h1 : getStatesDurations A = .error .indexError := by
    unfold getStatesDurations
    rw [h0]
    rfl
  unfold stateDurationMetric durationsByStates
  rw [h1]
  rfl

end

/-- Patterns over four time steps: `0 0 1 1` and `0 1 1 1`. -/
def patternsA : Diaries Nat := ⟨2, 4, fun p t => (([[0, 0, 1, 1], [0, 1, 1, 1]] : List (List Nat)).getD p []).getD t 0⟩
/-- `0 0 1 0`. -/
def patternsB : Diaries Nat := ⟨1, 4, fun _ t => ([0, 0, 1, 0] : List Nat).getD t 0⟩

example : stateDurationMetric patternsA patternsB true = .ok [(1, [3 / 10]), (0, [3 / 10])] := by decide +kernel
example : SomeChange patternsA ∧ SomeChange patternsB := ⟨⟨0, 2, by decide⟩, ⟨0, 2, by decide⟩⟩
example : ∀ s, Occurs patternsA s ↔ Occurs patternsB s := by
  have hb : ∀ s, Occurs patternsB s ↔ s = 0 ∨ s = 1 := by
    intro s
    constructor
    · rintro ⟨p, t, _, ht, rfl⟩
      have : t < 4 := ht
      interval_cases t <;> simp [patternsB]
    · rintro (rfl | rfl)
      · exact ⟨0, 0, by decide⟩
      · exact ⟨0, 2, by decide⟩
  intro s
  rw [hb]
  constructor
  · rintro ⟨p, t, hp, ht, rfl⟩
    have : t < 4 := ht
    have : p < 2 := hp
    interval_cases p <;> interval_cases t <;> simp [patternsA]
  · rintro (rfl | rfl)
    · exact ⟨0, 0, by decide⟩
    · exact ⟨0, 2, by decide⟩

/-- The value returned is not the documented one: here 3/10 instead of 3/8. -/
theorem C69_normalisation_counterexample :
    stateDurationMetric patternsA patternsB true = .ok [(1, [3 / 10]), (0, [3 / 10])] ∧
    documentedDistance patternsA patternsB 0 = 3 / 8 := by decide +kernel

theorem C69_full_fails : ¬ C69_full := by
  intro h
  obtain ⟨out, h1, h2⟩ := h patternsA patternsB rfl (by decide)
  rw [C69_normalisation_counterexample.1] at h1
  cases h1
  have := h2 0 (.inl ⟨0, 0, by decide⟩)
  rw [C69_normalisation_counterexample.2] at this
  revert this
  decide +kernel

/-- Simulated patterns that are longer than the measured ones make the call fail when one of their runs
does not fit. -/
theorem C69_longer_counterexample :
    stateDurationMetric ⟨1, 6, fun _ t => if t < 5 then 0 else 1⟩ patternsB true = .error .valueError := by decide +kernel

/-! ## C70: the graph metrics -/

/-- Full statement of C70: for all patterns the metrics are the number of observed pairs of a time and a
state, a share between 0 and 1, the mean number of persons per observed edge, and the share of
the person-steps that keep the state. -/
def C70_full : Prop :=
  ∀ D : Diaries Nat, 0 < D.nP → 0 < D.nT → ∃ size density centrality homophily,
    graphMetrics D = .ok (size, density, centrality, homophily) ∧
    size = ∑ t ∈ Finset.range D.nT, (statesAt D t).card ∧ 0 ≤ density ∧ density ≤ 1 ∧
    centrality = ((D.nT * D.nP : Nat) : Rat) / ((observedEdges D).card : Rat) ∧
    homophily = ((keptSteps D).card : Rat) / ((D.nT * D.nP : Nat) : Rat)

/-- What the four numbers are, for at least two time steps. The size counts, for every time, the states
of this time or of the time before; the density compares all the cyclic edges with the number of
edges that are possible in one time step less. -/
theorem C70_values_partial (D : Diaries Nat) (hP : 0 < D.nP) (hT : 1 < D.nT) :
    graphMetrics D = .ok
      (∑ t ∈ Finset.range D.nT, (statesBefore D t ∪ statesAt D t).card,
       ((observedEdges D).card : Rat) / (((D.nT - 1) * (allStates D).card ^ 2 : Nat) : Rat),
       ((D.nT * D.nP : Nat) : Rat) / ((observedEdges D).card : Rat),
       ((keptSteps D).card : Rat) / ((D.nT * D.nP : Nat) : Rat)) := by
  unfold graphMetrics
  rw [if_neg (by omega)]
  simp only [sources_card, nodes_card, graphEdges_length, weightSum_all]
  have hc : 0 < (allStates D).card := by
    rw [Finset.card_pos]
    refine ⟨D.at' 0 0, ?_⟩
    simp only [allStates, Finset.mem_biUnion, Finset.mem_range, statesAt, Finset.mem_image]
    exact ⟨0, by omega, 0, hP, rfl⟩
  have hpos : (D.nT - 1) * (allStates D).card ^ 2 ≠ 0 := Nat.mul_ne_zero (by omega) (pow_ne_zero _ (by omega))
  rw [if_neg hpos]
  have hk := weightSum_card D fun x => x.2.2 = x.2.1
  rw [hk]
  have : ((Finset.range D.nT ×ˢ Finset.range D.nP).filter fun q => D.at' q.2 q.1 = stateBefore D q.2 q.1) = keptSteps D := by
    unfold keptSteps
    apply Finset.filter_congr
    intro q _
    exact eq_comm
  simp only [this]
  push_cast
  rfl

/-- The bounds of the four numbers. -/
theorem C70_bounds_partial (D : Diaries Nat) (hP : 0 < D.nP) (hT : 1 < D.nT) :
    ∃ size density centrality homophily, graphMetrics D = .ok (size, density, centrality, homophily) ∧
      ∑ t ∈ Finset.range D.nT, (statesAt D t).card ≤ size ∧
      0 < density ∧ density ≤ D.nT / (D.nT - 1) ∧
      1 ≤ centrality ∧ centrality ≤ D.nP ∧
      0 ≤ homophily ∧ homophily ≤ 1 ∧ (homophily = 1 ↔ ∀ p t, p < D.nP → t < D.nT → D.at' p t = D.at' p 0) := by
  have hdom : (Finset.range D.nT ×ˢ Finset.range D.nP).card = D.nT * D.nP := by simp
  have hn : 0 < D.nT * D.nP := Nat.mul_pos (by omega) hP
  have hcle : (observedEdges D).card ≤ D.nT * D.nP := by rw [← hdom]; exact Finset.card_image_le
  have hclb : D.nT ≤ (observedEdges D).card := by
    have h1 : ((observedEdges D).image (·.1)).card ≤ (observedEdges D).card := Finset.card_image_le
    have h2 : Finset.range D.nT ⊆ (observedEdges D).image (·.1) := by
      intro t ht
      have ht := Finset.mem_range.1 ht
      exact Finset.mem_image.2 ⟨(t, stateBefore D 0 t, D.at' 0 t), (mem_observedEdges D _ _ _).2 ⟨ht, 0, hP, rfl, rfl⟩, rfl⟩
    have h3 := Finset.card_le_card h2
    rw [Finset.card_range] at h3
    omega
  have hcpos : (0 : Rat) < ((observedEdges D).card : Rat) := by
    have : 0 < (observedEdges D).card := by omega
    exact_mod_cast this
  have hs : 0 < (allStates D).card := by
    rw [Finset.card_pos]
    refine ⟨D.at' 0 0, ?_⟩
    simp only [allStates, Finset.mem_biUnion, Finset.mem_range, statesAt, Finset.mem_image]
    exact ⟨0, by omega, 0, hP, rfl⟩
  have hnq : (0 : Rat) < ((D.nT * D.nP : Nat) : Rat) := by exact_mod_cast hn
  have hkle : (keptSteps D).card ≤ D.nT * D.nP := by rw [← hdom]; exact Finset.card_filter_le _ _
  refine ⟨_, _, _, _, C70_values_partial D hP hT, ?_, ?_, ?_, ?_, ?_, ?_, ?_, ?_⟩
  · exact Finset.sum_le_sum fun t _ => Finset.card_le_card Finset.subset_union_right
  · apply div_pos hcpos
    have : 0 < (D.nT - 1) * (allStates D).card ^ 2 := Nat.mul_pos (by omega) (Nat.pow_pos hs)
    exact_mod_cast this
  · have hedge : (observedEdges D).card ≤ D.nT * (allStates D).card ^ 2 := by
      have hsub : observedEdges D ⊆ Finset.range D.nT ×ˢ (allStates D ×ˢ allStates D) := by
        rintro ⟨t, i, j⟩ h
        obtain ⟨ht, p, hp, rfl, rfl⟩ := (mem_observedEdges D _ _ _).1 h
        simp only [Finset.mem_product, Finset.mem_range, allStates, Finset.mem_biUnion, statesAt, Finset.mem_image]
        exact ⟨ht, ⟨_, by split <;> omega, p, hp, rfl⟩, ⟨t, ht, p, hp, rfl⟩⟩
      have := Finset.card_le_card hsub
      rw [Finset.card_product, Finset.card_product, Finset.card_range] at this
      rw [pow_two]; exact this
    have h1 : (0 : Rat) < (D.nT : Rat) - 1 := by
      have : (1 : Rat) < (D.nT : Rat) := by exact_mod_cast hT
      linarith
    have h2 : (((D.nT - 1) * (allStates D).card ^ 2 : Nat) : Rat) = ((D.nT : Rat) - 1) * ((allStates D).card : Rat) ^ 2 := by
      push_cast [Nat.cast_sub (le_of_lt hT)]
      ring
    have h3 : (0 : Rat) < ((allStates D).card : Rat) ^ 2 := by positivity
    rw [h2, div_le_div_iff₀ (mul_pos h1 h3) h1]
    have h4 : ((observedEdges D).card : Rat) ≤ (D.nT : Rat) * ((allStates D).card : Rat) ^ 2 := by exact_mod_cast hedge
    nlinarith
  · rw [le_div_iff₀ hcpos, one_mul]
    exact_mod_cast hcle
  · rw [div_le_iff₀ hcpos]
    have : ((D.nT : Nat) : Rat) ≤ ((observedEdges D).card : Rat) := by exact_mod_cast hclb
    push_cast
    have h0 : (0 : Rat) ≤ (D.nP : Rat) := by positivity
    nlinarith
  · positivity
  · rw [div_le_one₀ hnq]
    exact_mod_cast hkle
  · rw [div_eq_one_iff_eq (ne_of_gt hnq)]
    norm_cast
    rw [← hdom]
    unfold keptSteps
    rw [Finset.card_filter_eq_iff]
    constructor
    · intro h p t hp ht
      induction t with
      | zero => rfl
      | succ t ih =>
        have := h (x := (t + 1, p)) (by simp [ht, hp])
        simp only [stateBefore] at this
        rw [← this, if_neg (by omega)]
        exact ih (by omega)
    · rintro h ⟨t, p⟩ hq
      simp only [Finset.mem_product, Finset.mem_range] at hq
      simp only [stateBefore]
      rw [h p t hq.2 hq.1]
      exact h p _ hq.2 (by split <;> omega)

/-- A single time step makes the call fail. -/
theorem C70_single_step (D : Diaries Nat) (hP : 0 < D.nP) (hT : D.nT = 1) : graphMetrics D = .error .zeroDivisionError := by
  unfold graphMetrics
  rw [if_neg (by omega)]
  simp [hT]

example : graphMetrics patternsA = .ok (7, 1 / 2, 4 / 3, 1 / 2) ∧ 0 < patternsA.nP ∧ 1 < patternsA.nT := by decide +kernel

/-- The documented size of `0 0 1 1`, `0 1 1 1` is 5: the pairs of a time and a state that occur; the
function returns 7. -/
theorem C70_size_counterexample :
    ∑ t ∈ Finset.range patternsA.nT, (statesAt patternsA t).card = 5 ∧
    (graphMetrics patternsA).map (·.1) = .ok 7 := by decide +kernel

/-- The density of one constant pattern over two time steps is 2. -/
theorem C70_density_counterexample :
    graphMetrics ⟨1, 2, fun _ _ => 0⟩ = .ok (2, 2, 1, 1) := by decide +kernel

theorem C70_full_fails : ¬ C70_full := by
  intro h
  obtain ⟨s, d, c, m, h1, _, _, h2, _⟩ := h ⟨1, 2, fun _ _ => 0⟩ (by decide) (by decide)
  rw [C70_density_counterexample] at h1
  simp only [Except.ok.injEq, Prod.mk.injEq] at h1
  rw [← h1.2.1] at h2
  exact absurd h2 (by decide +kernel)

end Demod
