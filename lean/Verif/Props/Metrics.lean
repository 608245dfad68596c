import Verif.Lemmas.Histogram
import Mathlib.Analysis.Real.Sqrt
import Mathlib.Tactic.IntervalCases
import Mathlib.Algebra.BigOperators.Group.List.Basic
import Mathlib.Algebra.Order.Floor.Ring
import Mathlib.Data.Rat.Floor

/-! # Properties of the metrics (C23 – C28) -/

namespace Demod

/-! ## C23: diversity and coincidence -/

theorem maxima_exist (D : Diaries Rat) (hT : 0 < D.nT) : ∃ M : Nat → Rat, ∀ p, IsMaxOf (D.row p) (M p) := by
  have h : ∀ p, ∃ m, maxRat (D.row p) = .ok m := by
    intro p
    apply maxRat_ok
    intro hc
    have := congrArg List.length hc
    simp [Diaries.row] at this
    omega
  choose M hM using h
  exact ⟨M, fun p => (maxRat_spec _ _).1 (hM p)⟩

/-- The diversity factor is the sum of the individual maxima over the peak of the aggregated load. It
is at least 1 and at most the number of profiles, for non-negative loads with a positive peak. -/
theorem C23_diversity (D : Diaries Rat) (M : Nat → Rat) (peak : Rat)
    (hM : ∀ p, p < D.nP → IsMaxOf (D.row p) (M p))
    (hpeak : IsMaxOf ((List.range D.nT).map (aggregateAt D)) peak) (hpos : 0 < peak) :
    diversityFactor D = .ok (((List.range D.nP).map M).sum / peak) ∧
    1 ≤ ((List.range D.nP).map M).sum / peak ∧
    ((∀ p, p < D.nP → ∀ t, t < D.nT → 0 ≤ D.at' p t) → ((List.range D.nP).map M).sum / peak ≤ D.nP) := by
  have hcs : colSums D = (List.range D.nT).map (aggregateAt D) := rfl
  refine ⟨?_, ?_, ?_⟩
  · unfold diversityFactor
    rw [mapM_range_ok D.nP _ M fun p hp => (maxRat_spec _ _).2 (hM p hp), hcs, (maxRat_spec _ _).2 hpeak]
    rfl
  · rw [le_div_iff₀ hpos, one_mul]
    obtain ⟨t, ht, rfl⟩ := List.mem_map.1 hpeak.1
    apply sum_range_le
    intro p hp
    exact (hM p hp).2 _ ((mem_row D p _).2 ⟨t, List.mem_range.1 ht, rfl⟩)
  · intro hnn
    rw [div_le_iff₀ hpos, ← sum_range_const]
    apply sum_range_le
    intro p hp
    obtain ⟨t, ht, he⟩ := (mem_row D p _).1 (hM p hp).1
    rw [← he]
    refine le_trans ?_ (hpeak.2 _ (List.mem_map_of_mem (List.mem_range.2 ht)))
    exact single_le_sum_range D.nP (fun q => D.at' q t) (fun q hq => hnn q hq t ht) p hp

/-- The coincidence factor is the inverse of the diversity factor: the peak of the aggregated load
over the sum of the maxima, positive and at most 1. -/
theorem C23_coincidence (D : Diaries Rat) (M : Nat → Rat) (peak : Rat)
    (hM : ∀ p, p < D.nP → IsMaxOf (D.row p) (M p))
    (hpeak : IsMaxOf ((List.range D.nT).map (aggregateAt D)) peak) (hpos : 0 < peak) :
    coincidenceFactor D = .ok (peak / ((List.range D.nP).map M).sum) ∧
    0 < peak / ((List.range D.nP).map M).sum ∧ peak / ((List.range D.nP).map M).sum ≤ 1 := by
  obtain ⟨h1, h2, _⟩ := C23_diversity D M peak hM hpeak hpos
  have h3 : peak ≤ ((List.range D.nP).map M).sum := by rwa [le_div_iff₀ hpos, one_mul] at h2
  have h4 : 0 < ((List.range D.nP).map M).sum := lt_of_lt_of_le hpos h3
  refine ⟨?_, div_pos hpos h4, (div_le_one h4).2 h3⟩
  unfold coincidenceFactor
  rw [h1]
  show Except.ok (1 / (((List.range D.nP).map M).sum / peak)) = _
  rw [one_div_div]

/-- The time coincident demand is the peak of the aggregated load per profile and never exceeds the
average of the individual maxima. -/
theorem C23_time_coincident_demand (D : Diaries Rat) (M : Nat → Rat) (peak : Rat) (hP : 0 < D.nP)
    (hM : ∀ p, p < D.nP → IsMaxOf (D.row p) (M p))
    (hpeak : IsMaxOf ((List.range D.nT).map (aggregateAt D)) peak) :
    timeCoincidentDemand D = .ok (peak / D.nP) ∧ peak / D.nP ≤ ((List.range D.nP).map M).sum / D.nP := by
  have hn : (0 : Rat) < D.nP := by exact_mod_cast hP
  constructor
  · unfold timeCoincidentDemand
    rw [maxRat_spec]
    obtain ⟨t, ht, rfl⟩ := List.mem_map.1 hpeak.1
    refine ⟨List.mem_map.2 ⟨t, ht, rfl⟩, ?_⟩
    intro x hx
    obtain ⟨u, hu, rfl⟩ := List.mem_map.1 hx
    exact (div_le_div_iff_of_pos_right hn).2 (hpeak.2 _ (List.mem_map.2 ⟨u, hu, rfl⟩))
  · rw [div_le_div_iff_of_pos_right hn]
    obtain ⟨t, ht, rfl⟩ := List.mem_map.1 hpeak.1
    apply sum_range_le
    intro p hp
    exact (hM p hp).2 _ ((mem_row D p _).2 ⟨t, List.mem_range.1 ht, rfl⟩)

/-- Two profiles `[3, 0]` and `[1, 2]`. -/
def exProfiles : Diaries Rat := ⟨2, 2, fun p t => (([[3, 0], [1, 2]] : List (List Rat)).getD p []).getD t 0⟩

example : (∀ p, p < exProfiles.nP → IsMaxOf (exProfiles.row p) (if p = 0 then 3 else 2)) ∧
    IsMaxOf ((List.range exProfiles.nT).map (aggregateAt exProfiles)) 4 ∧
    (∀ p, p < exProfiles.nP → ∀ t, t < exProfiles.nT → 0 ≤ exProfiles.at' p t) := by
  refine ⟨?_, ?_, ?_⟩
  · intro p hp
    have hp : p < 2 := hp
    interval_cases p <;> (unfold IsMaxOf; decide +kernel)
  · unfold IsMaxOf; decide +kernel
  · decide +kernel

example : diversityFactor exProfiles = .ok (5 / 4) := by decide +kernel

/-! ## C24: load duration curve -/

theorem ratLt_total : StrictTotal ratLt where
  irrefl := fun a => by simp [ratLt]
  trans := fun a b c h1 h2 => by simp only [ratLt, decide_eq_true_eq] at *; exact lt_trans h1 h2
  total := fun a b h1 h2 => by
    simp only [ratLt, decide_eq_false_iff_not, not_lt] at *
    exact le_antisymm h2 h1

/-- The number of time steps during which the load of profile `p` is at least `l`. -/
def stepsAtLeast (D : Diaries Rat) (p : Nat) (l : Rat) : Nat :=
  (List.range D.nT).countP fun t => decide (l ≤ D.at' p t)

theorem sortRat_pairwise (xs : List Rat) : (sortRat xs).Pairwise (· ≤ ·) := List.pairwise_insertionSort _ _

theorem countP_mono_le {α : Type} (xs : List α) (P Q : α → Bool) (h : ∀ x ∈ xs, P x = true → Q x = true) :
    xs.countP P ≤ xs.countP Q := List.countP_mono_left h

/-- With the user's loads the function returns the sorted loads and, for every profile and load, the
number of steps during which the load is at least that value. That number decreases along the sorted
loads and lies between 0 and the number of steps. -/
theorem C24_given_loads (D : Diaries Rat) (l : List Rat) :
    ∃ ls, ls.Perm l ∧ ls.Pairwise (· ≤ ·) ∧
      loadDuration D (some l) = (ls, (List.range D.nP).map fun p => ls.map (stepsAtLeast D p)) ∧
      (∀ p, (ls.map (stepsAtLeast D p)).Pairwise (· ≥ ·)) ∧
      ∀ p, ∀ d ∈ ls.map (stepsAtLeast D p), d ≤ D.nT := by
  refine ⟨sortRat l, List.perm_insertionSort _ _, sortRat_pairwise l, ?_, ?_, ?_⟩
  · unfold loadDuration stepsAtLeast Diaries.row
    simp only [List.countP_map, ge_iff_le]
    rfl
  · intro p
    rw [List.pairwise_map]
    refine (sortRat_pairwise l).imp ?_
    intro a b hab
    apply countP_mono_le
    intro t _ ht
    simp only [decide_eq_true_eq] at *
    exact le_trans hab ht
  · intro p d hd
    obtain ⟨x, _, rfl⟩ := List.mem_map.1 hd
    exact le_trans List.countP_le_length (by simp)

/-- Without loads, the loads are the distinct values of the profiles in increasing order, and the
duration of the smallest one is the whole time for every profile. -/
theorem C24_default_loads (D : Diaries Rat) (hP : 0 < D.nP) (hT : 0 < D.nT) :
    ∃ ls, ls.Pairwise (· < ·) ∧ (∀ x, x ∈ ls ↔ ∃ p t, p < D.nP ∧ t < D.nT ∧ D.at' p t = x) ∧
      loadDuration D none = (ls, (List.range D.nP).map fun p => ls.map (stepsAtLeast D p)) ∧
      ∃ x, ls.head? = some x ∧ ∀ p, p < D.nP → stepsAtLeast D p x = D.nT := by
  let us := npUnique ratLt ((List.range D.nP).flatMap D.row)
  have hmem : ∀ x, x ∈ us ↔ ∃ p t, p < D.nP ∧ t < D.nT ∧ D.at' p t = x := by
    intro x
    rw [mem_npUnique ratLt_total]
    simp only [List.mem_flatMap, List.mem_range, mem_row]
    constructor
    · rintro ⟨p, hp, t, ht, rfl⟩; exact ⟨p, t, hp, ht, rfl⟩
    · rintro ⟨p, t, hp, ht, rfl⟩; exact ⟨p, hp, t, ht, rfl⟩
  have hnd : us.Nodup := npUnique_nodup ratLt_total _
  have hperm : (sortRat us).Perm us := List.perm_insertionSort _ _
  have hlt : (sortRat us).Pairwise (· < ·) := by
    have h1 := sortRat_pairwise us
    have h2 : (sortRat us).Nodup := hperm.nodup_iff.2 hnd
    exact (h1.and h2).imp fun ⟨a, b⟩ => lt_of_le_of_ne a b
  refine ⟨sortRat us, hlt, fun x => (hperm.mem_iff).trans (hmem x), ?_, ?_⟩
  · unfold loadDuration stepsAtLeast
    simp only [Diaries.row, List.countP_map, ge_iff_le]
    rfl
  · have hne : sortRat us ≠ [] := by
      intro hc
      have := (hperm.mem_iff).2 ((hmem (D.at' 0 0)).2 ⟨0, 0, hP, hT, rfl⟩)
      rw [hc] at this
      cases this
    obtain ⟨x, rest, hx⟩ := List.exists_cons_of_ne_nil hne
    refine ⟨x, by rw [hx]; rfl, ?_⟩
    intro p hp
    unfold stepsAtLeast
    rw [List.countP_eq_length.2, List.length_range]
    intro t ht
    have hm := (hperm.mem_iff).2 ((hmem (D.at' p t)).2 ⟨p, t, hp, List.mem_range.1 ht, rfl⟩)
    rw [hx] at hm hlt
    simp only [decide_eq_true_eq]
    rcases List.mem_cons.1 hm with h | h
    · exact le_of_eq h.symm
    · exact le_of_lt ((List.pairwise_cons.1 hlt).1 _ h)

example : loadDuration exProfiles none = ([0, 1, 2, 3], [[2, 1, 1, 1], [2, 2, 1, 0]]) := by decide +kernel

/-- A one dimensional profile is not rearranged as the code comment says: the call fails. -/
theorem C24_one_dimensional_counterexample (profile : List Rat) (loads : Option (List Rat)) :
    loadDuration1d profile loads = .error .indexError := rfl

/-! ## C25: energy -/

/-- The energies: one for each profile, the sum of power times duration of the step. -/
theorem C25_energy (step : Rat) (D : Diaries Rat) :
    (totalEnergy step D).length = D.nP ∧
    ∀ p, p < D.nP → (totalEnergy step D)[p]? = some (((List.range D.nT).map fun t => D.at' p t * step).sum) := by
  unfold totalEnergy Diaries.row
  refine ⟨by simp, ?_⟩
  intro p hp
  rw [List.getElem?_map, List.getElem?_range hp, Option.map_some]
  congr 1
  rw [mul_comm, ← sum_range_mul]
  congr 2
  funext t; ring

/-- Energy is additive over consecutive periods. -/
theorem C25_additive_time (step : Rat) (A B : Diaries Rat) (h : A.nP = B.nP) :
    totalEnergy step (concatTime A B) = (totalEnergy step A).zipWith (· + ·) (totalEnergy step B) := by
  unfold totalEnergy
  rw [← h]
  apply List.ext_getElem
  · simp [concatTime]
  · intro p h1 h2
    simp only [List.getElem_map, List.getElem_zipWith, List.getElem_range]
    rw [← add_mul]
    congr 1
    unfold Diaries.row concatTime
    simp only
    rw [List.range_add, List.map_append, List.sum_append, List.map_map]
    congr 2
    · apply List.map_congr_left
      intro t ht
      rw [if_pos (List.mem_range.1 ht)]
    · apply List.map_congr_left
      intro t _
      simp

/-- Energy is additive in the load: the energy of summed profiles (e.g. of the appliances of the same
households) is the sum of the energies. -/
theorem C25_additive_load (step : Rat) (A B : Diaries Rat) (h1 : A.nP = B.nP) (h2 : A.nT = B.nT) :
    totalEnergy step (addProfiles A B) = (totalEnergy step A).zipWith (· + ·) (totalEnergy step B) := by
  unfold totalEnergy
  rw [← h1]
  apply List.ext_getElem
  · simp [addProfiles]
  · intro p _ _
    simp only [List.getElem_map, List.getElem_zipWith, List.getElem_range]
    rw [← add_mul]
    congr 1
    unfold Diaries.row addProfiles
    simp only
    rw [← h2, sum_range_add]

/-- The energy of all households together is the energy of their aggregated load. -/
theorem C25_additive_households (step : Rat) (D : Diaries Rat) :
    (totalEnergy step D).sum = ((List.range D.nT).map (aggregateAt D)).sum * step := by
  unfold totalEnergy aggregateAt Diaries.row
  have key : ∀ n m (f : Nat → Nat → Rat), ((List.range n).map fun p => ((List.range m).map fun t => f p t).sum).sum =
      ((List.range m).map fun t => ((List.range n).map fun p => f p t).sum).sum := by
    intro n m f
    induction n with
    | zero => simp
    | succ n ih =>
      rw [List.range_succ, List.map_append, List.sum_append, ih]
      simp only [List.map_append, List.sum_append, List.map_cons, List.map_nil, List.sum_cons, List.sum_nil, add_zero]
      rw [sum_range_add]
  rw [← key]
  have : (List.range D.nP).map (fun p => ((List.range D.nT).map fun t => D.at' p t).sum * step) =
      (List.range D.nP).map fun p => step * ((List.range D.nT).map fun t => D.at' p t).sum := by
    apply List.map_congr_left; intro p _; ring
  rw [this, sum_range_mul]; ring

/-- Energy is linear in the load and in the duration of the step. -/
theorem C25_scales (step c : Rat) (D : Diaries Rat) :
    totalEnergy step (scaleProfiles c D) = (totalEnergy step D).map (c * ·) ∧
    totalEnergy (c * step) D = (totalEnergy step D).map (c * ·) := by
  unfold totalEnergy scaleProfiles Diaries.row
  simp only [List.map_map]
  constructor
  · apply List.map_congr_left
    intro p _
    simp only [Function.comp]
    rw [sum_range_mul]; ring
  · apply List.map_congr_left
    intro p _
    simp only [Function.comp]
    ring

/-- One kWh is 1000 W during one hour, and the two conversions are inverse to each other. -/
theorem C25_converters (x : Rat) :
    joulesToKwh (kwhToJoules x) = x ∧ kwhToJoules (joulesToKwh x) = x ∧ joulesToKwh (1000 * 3600) = 1 := by
  unfold joulesToKwh kwhToJoules
  refine ⟨by field_simp, by field_simp, by norm_num⟩

example : totalEnergy 60 exProfiles = [180, 180] := by decide +kernel

/-! ## C26: distribution of the changes in demand -/

/-- The share of the values of the list that are below `v`. -/
def shareBelow (xs : List Rat) (v : Rat) : Rat := (xs.countP fun x => decide (x < v) : Nat) / (xs.length : Rat)

/-- Without normalisation, with at least one bin and at least one real change: every change between
consecutive steps is counted exactly once. Bin `i` counts the changes from `i` to `i+1` times the
bin width (the last bin includes the largest change `M`), and the returned values are the shares of
the changes below the upper edges. They increase within [0, 1] up to 1. -/
theorem C26_distribution_partial (D : Diaries Rat) (bins : Nat) (M : Rat) (hb : 0 < bins)
    (hM : IsMaxOf (demandChanges D) M) (hpos : 0 < M) :
    ∃ hist cdf, cumulativeChanges D bins false none = .ok (hist, cdf) ∧
      hist.length = bins ∧ cdf.length = bins ∧ hist.sum = D.nP * (D.nT - 1) ∧
      (∀ i, i < bins → hist[i]? = some ((demandChanges D).countP fun x =>
        decide ((i : Rat) * (M / bins) ≤ x ∧ (x < ((i : Rat) + 1) * (M / bins) ∨ (i + 1 = bins ∧ x = M))))) ∧
      (∀ i, i + 1 < bins → cdf[i]? = some (shareBelow (demandChanges D) (((i : Rat) + 1) * (M / bins)))) ∧
      cdf[bins - 1]? = some 1 ∧ cdf.Pairwise (· ≤ ·) ∧ ∀ x ∈ cdf, 0 ≤ x ∧ x ≤ 1 := by
  have hnn : ∀ x ∈ demandChanges D, 0 ≤ x := by
    intro x hx
    unfold demandChanges at hx
    simp only [List.mem_flatMap, List.mem_map] at hx
    obtain ⟨p, _, t, _, rfl⟩ := hx
    exact abs_nonneg _
  have hlen : (demandChanges D).length = D.nP * (D.nT - 1) := by
    unfold demandChanges
    rw [List.length_flatMap]
    simp
  have hmax := (maxRat_spec _ _).2 hM
  have hle := hM.2
  have hne : demandChanges D ≠ [] := List.ne_nil_of_mem hM.1
  unfold cumulativeChanges
  generalize demandChanges D = xs at *
  have hin : ∀ x ∈ xs, 0 ≤ x ∧ x ≤ M := fun x hx => ⟨hnn x hx, hle x hx⟩
  have hh := histogram_eq xs bins M hpos hin
  have hsum : (histogram xs bins M).sum = xs.length := by
    rw [hh, sum_counts, List.countP_eq_length.2, List.length_map]
    intro y hy
    obtain ⟨x, _, rfl⟩ := List.mem_map.1 hy
    simpa using binOf_lt bins M x hb
  have hlh : (histogram xs bins M).length = bins := by rw [hh]; simp
  have hlq : (0 : Rat) < xs.length := by exact_mod_cast List.length_pos_iff.2 hne
  have hcum : ∀ i, i < bins → (cumsum ((histogram xs bins M).map fun (h : Nat) => (h : Rat) / (((histogram xs bins M).sum : Nat) : Rat)))[i]? =
      some ((xs.countP fun x => decide (binOf bins M x ≤ i) : Nat) / (xs.length : Rat)) := by
    intro i hi
    rw [List.getElem?_eq_getElem (by simpa [hlh] using hi), cumsum_get _ _ (by simpa [hlh] using hi)]
    congr 1
    rw [← List.map_take, sum_cast_div, hsum]
    congr 2
    rw [hh, ← List.map_take, List.take_range, Nat.min_eq_left (by omega), sum_counts, List.countP_map]
    apply List.countP_congr
    intro x _
    simp
  have hnonneg : ∀ x ∈ ((histogram xs bins M).map fun (h : Nat) => (h : Rat) / (((histogram xs bins M).sum : Nat) : Rat)), 0 ≤ x := by
    intro x hx
    obtain ⟨h, _, rfl⟩ := List.mem_map.1 hx
    positivity
  refine ⟨histogram xs bins M, cumsum ((histogram xs bins M).map fun (h : Nat) => (h : Rat) / (((histogram xs bins M).sum : Nat) : Rat)),
    ?_, hlh, by simp [hlh], by rw [hsum, hlen], ?_, ?_, ?_, ?_, ?_⟩
  · unfold cumulativeOf
    rw [hmax]
    show (if bins = 0 then (Except.error PyErr.valueError : Except PyErr (List Nat)) >>= _ else _) = _
    rw [if_neg (by omega)]
    rfl
  · intro i hi
    rw [List.getElem?_eq_getElem (by rw [hlh]; exact hi)]
    congr 1
    simp only [hh, List.getElem_map, List.getElem_range]
    rw [List.count, List.countP_map]
    apply List.countP_congr
    intro x hx
    simp only [Function.comp, beq_iff_eq, decide_eq_true_eq]
    exact binOf_eq_iff bins M x hpos hb (hnn x hx) (hle x hx) i hi
  · intro i hi
    rw [hcum i (by omega)]
    unfold shareBelow
    congr 3
    apply List.countP_congr
    intro x _
    simp only [decide_eq_true_eq]
    exact binOf_le_iff bins M x hpos hb i hi
  · rw [hcum (bins - 1) (by omega)]
    congr 1
    rw [List.countP_eq_length.2, div_self (ne_of_gt hlq)]
    intro x _
    have := binOf_lt bins M x hb
    simp only [decide_eq_true_eq]
    omega
  · exact cumsum_pairwise _ hnonneg
  · intro x hx
    obtain ⟨i, hi, rfl⟩ := List.getElem_of_mem hx
    have hi' : i < bins := by simpa [hlh] using hi
    have h1 := hcum i hi'
    rw [List.getElem?_eq_getElem hi] at h1
    rw [Option.some.inj h1]
    constructor
    · positivity
    · rw [div_le_one hlq]
      exact_mod_cast List.countP_le_length

/-- One profile with the changes 2 and 1. -/
def exChanges : Diaries Rat := ⟨1, 3, fun _ t => ([0, 2, 1] : List Rat).getD t 0⟩

example : IsMaxOf (demandChanges exChanges) 2 ∧
    cumulativeChanges exChanges 4 false none = .ok ([0, 0, 1, 1], [0, 0, 1 / 2, 1]) := by
  unfold IsMaxOf; decide +kernel

/-- The user's edges, without normalisation: the call is rejected if the largest change reaches the
last edge or a change is below the first one, otherwise every change that is not equal to the first
edge is counted once. -/
theorem C26_edges_partial (D : Diaries Rat) (bins : Nat) (edges : List Rat) (lo hi M : Rat)
    (hlo : edges.head? = some lo) (hhi : edges.getLast? = some hi) (hM : IsMaxOf (demandChanges D) M)
    (hmin : ∀ x ∈ demandChanges D, lo ≤ x) (hmax : M < hi) :
    ∃ hist cdf, cumulativeChanges D bins false (some edges) = .ok (hist, cdf) ∧
      hist.sum = (demandChanges D).countP (fun x => decide (x ≠ lo)) := by
  have hmx := (maxRat_spec _ _).2 hM
  unfold cumulativeChanges
  generalize demandChanges D = xs at *
  refine ⟨(bincount (xs.map (searchsortedLeft edges)) 0).tail, cumsum (((bincount (xs.map (searchsortedLeft edges)) 0).tail).map
    fun (h : Nat) => (h : Rat) / ((((bincount (xs.map (searchsortedLeft edges)) 0).tail).sum : Nat) : Rat)), ?_, ?_⟩
  · unfold cumulativeOf
    rw [hmx]
    simp only [hlo, hhi]
    show (if M ≥ hi then (Except.error PyErr.valueError : Except PyErr (List Nat)) >>= _ else
      if xs.any (fun x => decide (x < lo)) then _ else _) = _
    rw [if_neg (not_le.2 hmax), if_neg]
    · rfl
    · simp only [List.any_eq_true, decide_eq_true_eq, not_exists, not_and, not_lt]
      exact hmin
  · obtain ⟨e, rest, rfl⟩ : ∃ e rest, edges = e :: rest := by
      cases edges with
      | nil => cases hlo
      | cons e rest => exact ⟨e, rest, rfl⟩
    have : e = lo := Option.some.inj hlo
    subst this
    have h1 := bincount_sum (xs.map (searchsortedLeft (e :: rest))) 0
    have hz : ∀ x ∈ xs, searchsortedLeft (e :: rest) x = 0 ↔ x = e := by
      intro x hx
      unfold searchsortedLeft
      rw [List.findIdx_cons]
      have hxe := hmin x hx
      by_cases h : x ≤ e
      · simp [h, le_antisymm h hxe]
      · simp [h]
        rintro rfl
        exact h (le_refl _)
    have hlen : 0 < (bincount (xs.map (searchsortedLeft (e :: rest))) 0).length := by
      obtain ⟨x, xs', rfl⟩ : ∃ x xs', xs = x :: xs' := by
        cases xs with
        | nil => exact absurd hM.1 (by simp)
        | cons x xs' => exact ⟨x, xs', rfl⟩
      simp [bincount]
    have hhead : (bincount (xs.map (searchsortedLeft (e :: rest))) 0).sum =
        (xs.map (searchsortedLeft (e :: rest))).count 0 + (bincount (xs.map (searchsortedLeft (e :: rest))) 0).tail.sum := by
      rcases hb : bincount (xs.map (searchsortedLeft (e :: rest))) 0 with _ | ⟨a, l⟩
      · rw [hb] at hlen; simp at hlen
      · have h0 := bincount_get (xs.map (searchsortedLeft (e :: rest))) 0 0 hlen
        simp only [hb, List.getElem_cons_zero] at h0
        rw [List.sum_cons, List.tail_cons, h0]
    have hcount : (xs.map (searchsortedLeft (e :: rest))).count 0 = xs.countP fun x => decide (x = e) := by
      rw [List.count, List.countP_map]
      apply List.countP_congr
      intro x hx
      simp [hz x hx]
    have hsplit : xs.length = (xs.countP fun x => decide (x = e)) + xs.countP fun x => decide (x ≠ e) := by
      have := List.length_eq_countP_add_countP (fun x => decide (x = e)) (l := xs)
      rw [this]
      congr 1
      apply List.countP_congr
      intro x _
      simp
    rw [List.length_map] at h1
    omega

example : cumulativeChanges exChanges 4 false (some [0, 1, 3]) = .ok ([1, 1], [1 / 2, 1]) := by decide +kernel

/-- With the default `normalize=True` the changes are divided by the largest change but the bins
still end at the original largest change: below 1 the large changes are lost (here one of two is
counted), -/
theorem C26_normalize_drops_counterexample :
    let D : Diaries Rat := ⟨1, 3, fun _ t => ([0, 1/2, 1/4] : List Rat).getD t 0⟩
    demandChanges D = [1/2, 1/4] ∧ cumulativeChanges D 4 true none = .ok ([0, 0, 0, 1], [0, 0, 0, 1]) := by decide +kernel

/-- … above 1 all the normalised changes fall in the lowest bins: the upper bins are empty whatever the
profile. Here the largest change is 8 and all of the changes are in the first of eight bins or at
its upper edge. -/
theorem C26_normalize_bunches_counterexample :
    let D : Diaries Rat := ⟨1, 3, fun _ t => ([0, 8, 4] : List Rat).getD t 0⟩
    cumulativeChanges D 8 true none = .ok ([1, 1, 0, 0, 0, 0, 0, 0], [1/2, 1, 1, 1, 1, 1, 1, 1]) ∧
    cumulativeChanges D 8 false none = .ok ([0, 0, 0, 0, 1, 0, 0, 1], [0, 0, 0, 0, 1/2, 1/2, 1/2, 1]) := by decide +kernel

/-- Edges from 0 to 1, as documented for `normalize=True`, are rejected as soon as the original largest
change is 1 or more; -/
theorem C26_normalize_edges_counterexample :
    let D : Diaries Rat := ⟨1, 3, fun _ t => ([0, 8, 4] : List Rat).getD t 0⟩
    cumulativeChanges D 8 true (some [0, 1/2, 1]) = .error .valueError := by decide +kernel

/-- and a change equal to the first edge, which the check accepts, is not counted. -/
theorem C26_first_edge_counterexample :
    let D : Diaries Rat := ⟨1, 3, fun _ t => ([0, 0, 1] : List Rat).getD t 0⟩
    demandChanges D = [0, 1] ∧ cumulativeChanges D 8 false (some [0, 2]) = .ok ([1], [1]) := by decide +kernel

/-! ## C27: durations of the states -/

theorem filter_map_flatMap {α β : Type} (l : List α) (P : α → Bool) (f : α → β) :
    (l.filter P).map f = l.flatMap fun q => if P q = true then [f q] else [] := by
  induction l with
  | nil => rfl
  | cons a l ih =>
    rw [List.flatMap_cons, ← ih, List.filter_cons]
    split <;> simp

section
variable {σ : Type} [DecidableEq σ]

theorem const_iff (D : Diaries σ) (q : Nat) :
    (List.range D.nT).all (fun t => decide (D.at' q t = D.at' q 0)) = true ↔ changeTimes D false q = [] := by
  rw [List.all_eq_true, List.eq_nil_iff_forall_not_mem]
  constructor
  · intro h x hx
    obtain ⟨hx1, hx2⟩ := (mem_changeTimes D false q x).1 hx
    have hall : ∀ y, y < D.nT → D.at' q y = D.at' q 0 := fun y hy => by simpa using h y (List.mem_range.2 hy)
    apply hx2
    unfold Diaries.before
    by_cases h0 : x = 0
    · simp only [h0, if_true, Bool.false_eq_true, if_false]
      exact hall _ (by omega)
    · simp only [h0, if_false]
      rw [hall _ (by omega), hall x hx1]
  · intro h x hx
    have hx := List.mem_range.1 hx
    simp only [decide_eq_true_eq]
    apply const_of_no_change D false q 0 D.nT _ x (by omega) hx
    intro y _ hy
    by_contra hc
    exact h y ((mem_changeTimes D false q y).2 ⟨hy, hc⟩)

theorem patternRuns_eq (D : Diaries σ) (q : Nat) :
    patternRuns D q = ((changeTimes D false q).map fun t => (runLength D q t, D.at' q t)) ++
      (if (List.range D.nT).all (fun t => decide (D.at' q t = D.at' q 0)) = true then [(D.nT, D.at' q 0)] else []) := by
  unfold patternRuns
  by_cases h : (List.range D.nT).all (fun t => decide (D.at' q t = D.at' q 0)) = true
  · rw [if_pos h, if_pos h, (const_iff D q).1 h]; rfl
  · rw [if_neg h, if_neg h, List.append_nil]
    congr 1
    unfold changeTimes
    apply List.filter_congr
    intro x _
    have : D.before false q x = D.at' q (if x = 0 then D.nT - 1 else x - 1) := by
      unfold Diaries.before
      by_cases h : x = 0 <;> simp [h]
    rw [this]
    simp only [ne_eq, decide_not]
    rw [decide_eq_decide.2 eq_comm]

/-- `get_states_durations` returns exactly the runs of all patterns (up to the order), as soon as one
pattern is not constant. -/
theorem C27_runs_partial (D : Diaries σ) (p t : Nat) (hp : p < D.nP) (ht : t < D.nT) (hne : D.at' p t ≠ D.at' p 0) :
    ∃ out, getStatesDurations D = .ok out ∧
      out.Perm (((List.range D.nP).flatMap (patternRuns D)).map fun r => ((r.1 : Int), r.2)) := by
  have hconst := const_iff D
  have hC : transitionIndices D ≠ [] := by
    intro hc
    have h1 : changeTimes D false p ≠ [] := by
      rw [ne_eq, ← hconst, List.all_eq_true]
      intro h
      exact hne (by simpa using h t (List.mem_range.2 ht))
    obtain ⟨x, hx⟩ := List.exists_mem_of_ne_nil _ h1
    have := (mem_transitionIndices D p x).2 ⟨hp, hx⟩
    rw [hc] at this
    cases this
  refine ⟨_, getStatesDurations_eq D hC, ?_⟩
  rw [transitionIndices_eq]
  have hruns := patternRuns_eq D
  have : (List.range D.nP).flatMap (patternRuns D) = (List.range D.nP).flatMap (fun q =>
      ((changeTimes D false q).map fun t => (runLength D q t, D.at' q t)) ++
      (if (List.range D.nT).all (fun t => decide (D.at' q t = D.at' q 0)) = true then [(D.nT, D.at' q 0)] else [])) := by
    congr 1; funext q; exact hruns q
  rw [this]
  refine List.Perm.trans ?_ (List.Perm.map _ (List.flatMap_append_perm _ _ _))
  rw [List.map_append]
  apply List.Perm.of_eq
  congr 1
  · simp only [List.map_flatMap, List.map_map]
    rfl
  · rw [filter_map_flatMap, List.map_flatMap]
    apply List.flatMap_congr
    intro q _
    split <;> rfl

/-- The runs of a pattern tile its circular day: they are positive and their durations sum to the number of
steps. Each run of a pattern that is not constant is maximal: it lasts for exactly its duration and is then
left for another state. A constant pattern has the single run of full length. -/
theorem C27_tile (D : Diaries σ) (p : Nat) (hT : 0 < D.nT) :
    ((patternRuns D p).map (·.1)).sum = D.nT ∧ (∀ r ∈ patternRuns D p, 0 < r.1) ∧
    ((∀ t, t < D.nT → D.at' p t = D.at' p 0) → patternRuns D p = [(D.nT, D.at' p 0)]) ∧
    (∀ t, t < D.nT → D.at' p t ≠ D.at' p 0 → ∀ r ∈ patternRuns D p, ∃ t, t < D.nT ∧ IsRun D p t r.1 ∧
      D.at' p t = r.2 ∧ D.at' p (if t = 0 then D.nT - 1 else t - 1) ≠ r.2) := by
  have : Inhabited σ := ⟨D.at' 0 0⟩
  by_cases hc : (List.range D.nT).all (fun t => decide (D.at' p t = D.at' p 0)) = true
  · have hr : patternRuns D p = [(D.nT, D.at' p 0)] := by
      unfold patternRuns; rw [if_pos hc]
    refine ⟨by rw [hr]; simp, ?_, fun _ => hr, ?_⟩
    · intro r h
      rw [hr, List.mem_singleton] at h
      rw [h]; exact hT
    · intro t ht hne
      exact absurd (by simpa using List.all_eq_true.1 hc t (List.mem_range.2 ht)) hne
  · have hr := patternRuns_eq D p
    rw [if_neg hc, List.append_nil] at hr
    have hne : changeTimes D false p ≠ [] := fun h => hc ((const_iff D p).2 h)
    have hpos : 0 < (changeTimes D false p).length := List.length_pos_iff.2 hne
    have hrun : ∀ t ∈ changeTimes D false p, IsRun D p t (runLength D p t) := by
      intro t ht
      obtain ⟨j, hj, rfl⟩ := List.getElem_of_mem ht
      have hw := first_eq_last_of_wrap D p hpos
      have h1 := personDurations_run D false p j hj (fun e => by
        rw [hw]; congr 2; omega)
      have h2 := runLength_of_isRun D p _ _ ((mem_changeTimes D false p _).1 ht).1 h1
      rw [h2.1]; exact h1
    have hmap : (changeTimes D false p).map (runLength D p) = personDurations D.nT false (changeTimes D false p)
        (D.before false p ((changeTimes D false p).headD 0)) (D.at' p ((changeTimes D false p).getLastD 0)) := by
      apply List.ext_getElem
      · rw [personDurations_length, List.length_map]
      · intro j h1 h2
        rw [List.getElem_map, duration_keptFor D false p j (by simpa using h1)]
        unfold keptFor
        rw [if_neg (by simp)]
    refine ⟨?_, ?_, ?_, ?_⟩
    · rw [hr, List.map_map]
      show ((changeTimes D false p).map (runLength D p)).sum = _
      rw [hmap, personDurations_sum D.nT false _ _ _ (changeTimes_sorted D false p) hne
        (fun t ht => ((mem_changeTimes D false p t).1 ht).1), headD_getElem _ _ hpos, getLastD_getElem _ _ hpos,
        if_pos (first_eq_last_of_wrap D p hpos)]
    · intro r h
      rw [hr] at h
      obtain ⟨t, ht, rfl⟩ := List.mem_map.1 h
      exact (hrun t ht).1
    · intro h
      exact absurd (List.all_eq_true.2 fun t ht => by simpa using h t (List.mem_range.1 ht)) hc
    · intro _ _ _ r h
      rw [hr] at h
      obtain ⟨t, ht, rfl⟩ := List.mem_map.1 h
      obtain ⟨h1, h2⟩ := (mem_changeTimes D false p t).1 ht
      refine ⟨t, h1, hrun t ht, rfl, ?_⟩
      have : D.before false p t = D.at' p (if t = 0 then D.nT - 1 else t - 1) := by
        unfold Diaries.before
        by_cases h : t = 0 <;> simp [h]
      rw [← this]; exact h2

end

/-- Three patterns: `0 1 1`, the constant `2 2 2`, and `1 0 1`. -/
def exPatterns : Diaries Nat := ⟨3, 3, fun p t => (([[0, 1, 1], [2, 2, 2], [1, 0, 1]] : List (List Nat)).getD p []).getD t 0⟩

example : getStatesDurations exPatterns = .ok [(1, 0), (2, 1), (1, 0), (2, 1), (3, 2)] := by decide +kernel

/-- When all patterns are constant the call fails instead of returning the runs of full length. -/
theorem C27_all_constant_counterexample :
    getStatesDurations (⟨2, 3, fun _ _ => 5⟩ : Diaries Nat) = .error .indexError := by decide +kernel

/-! ## C28: distances -/

theorem sum_zipWith_range (n : Nat) (f g : Nat → Rat) (h : Rat → Rat → Rat) :
    ((List.range n).map f).zipWith h ((List.range n).map g) = (List.range n).map fun t => h (f t) (g t) := by
  rw [List.zipWith_map, List.zipWith_self]

/-- The average number of subjects in the state at time `t`. -/
def averageAt (D : Diaries Rat) (t : Nat) : Rat := aggregateAt D t / D.nP

/-- The metric is the mean over time of the absolute difference of the averages. -/
theorem C28_average_state (A B : Diaries Rat) (h : A.nT = B.nT) :
    averageStateMetric A B = .ok (((List.range A.nT).map fun t => |averageAt A t - averageAt B t|).sum / A.nT) := by
  unfold averageStateMetric averageStateErrors
  rw [if_pos h]
  show Except.ok _ = _
  congr 1
  unfold colMeans
  rw [← h, sum_zipWith_range]
  simp only [List.length_map, List.length_range]
  rfl

/-- Symmetry, non-negativity, zero exactly for equal averages, and the triangle inequality. -/
theorem C28_pseudo_distance (A B C : Diaries Rat) (h1 : A.nT = B.nT) (h2 : B.nT = C.nT) (hT : 0 < A.nT) :
    averageStateMetric A B = averageStateMetric B A ∧
    ∃ ab bc ac, averageStateMetric A B = .ok ab ∧ averageStateMetric B C = .ok bc ∧ averageStateMetric A C = .ok ac ∧
      0 ≤ ab ∧ (ab = 0 ↔ ∀ t, t < A.nT → averageAt A t = averageAt B t) ∧ ac ≤ ab + bc := by
  have hn : (0 : Rat) < A.nT := by exact_mod_cast hT
  refine ⟨?_, _, _, _, C28_average_state A B h1, C28_average_state B C h2, C28_average_state A C (h1.trans h2), ?_, ?_, ?_⟩
  · rw [C28_average_state A B h1, C28_average_state B A h1.symm, h1]
    simp only [abs_sub_comm]
  · apply div_nonneg _ (le_of_lt hn)
    exact sum_range_nonneg _ _ fun t _ => abs_nonneg _
  · rw [div_eq_zero_iff, or_iff_left (ne_of_gt hn)]
    constructor
    · intro hs t ht
      have h3 := single_le_sum_range A.nT (fun t => |averageAt A t - averageAt B t|) (fun t _ => abs_nonneg _) t ht
      rw [hs] at h3
      have := abs_nonpos_iff.1 h3
      linarith
    · intro he
      have : (List.range A.nT).map (fun t => |averageAt A t - averageAt B t|) = (List.range A.nT).map fun _ => (0 : Rat) := by
        apply List.map_congr_left
        intro t ht
        rw [he t (List.mem_range.1 ht), sub_self, abs_zero]
      rw [this, sum_range_const, mul_zero]
  · rw [← h1, ← add_div, div_le_div_iff_of_pos_right hn, ← sum_range_add]
    apply sum_range_le
    intro t _
    exact abs_sub_le _ _ _

/-- Bounded: with at most `n` persons per diary the metric is at most `n`. -/
theorem C28_bounded (A B : Diaries Rat) (n : Rat) (h1 : A.nT = B.nT) (hT : 0 < A.nT) (hA : 0 < A.nP) (hB : 0 < B.nP)
    (bA : ∀ p t, p < A.nP → t < A.nT → 0 ≤ A.at' p t ∧ A.at' p t ≤ n)
    (bB : ∀ p t, p < B.nP → t < B.nT → 0 ≤ B.at' p t ∧ B.at' p t ≤ n) :
    ∃ ab, averageStateMetric A B = .ok ab ∧ 0 ≤ ab ∧ ab ≤ n := by
  have hn : (0 : Rat) < A.nT := by exact_mod_cast hT
  have hav : ∀ (D : Diaries Rat), 0 < D.nP → ∀ t, (∀ p, p < D.nP → 0 ≤ D.at' p t ∧ D.at' p t ≤ n) → 0 ≤ averageAt D t ∧ averageAt D t ≤ n := by
    intro D hD t hb
    have hd : (0 : Rat) < D.nP := by exact_mod_cast hD
    unfold averageAt aggregateAt
    constructor
    · exact div_nonneg (sum_range_nonneg _ _ fun p hp => (hb p hp).1) (le_of_lt hd)
    · rw [div_le_iff₀ hd, mul_comm, ← sum_range_const]
      exact sum_range_le _ _ _ fun p hp => (hb p hp).2
  refine ⟨_, C28_average_state A B h1, ?_, ?_⟩
  · apply div_nonneg _ (le_of_lt hn)
    exact sum_range_nonneg _ _ fun t _ => abs_nonneg _
  · rw [div_le_iff₀ hn, mul_comm, ← sum_range_const]
    apply sum_range_le
    intro t ht
    obtain ⟨a1, a2⟩ := hav A hA t fun p hp => bA p t hp ht
    obtain ⟨b1, b2⟩ := hav B hB t fun p hp => bB p t hp (by omega)
    rw [abs_le]; constructor <;> linarith

example : averageStateMetric exProfiles ⟨1, 2, fun _ _ => 1⟩ = .ok (1 / 2) := by decide +kernel

/-- The root mean square error of two arrays, `errors.py:8-21`: the square root of the modelled mean
square. It is symmetric, and 0 exactly for equal arrays. -/
theorem C28_rmse (x y : List Rat) (h : x.length = y.length) (hne : x ≠ []) :
    Real.sqrt (meanSquare x y : ℝ) = Real.sqrt (meanSquare y x : ℝ) ∧
    (Real.sqrt (meanSquare x y : ℝ) = 0 ↔ x = y) := by
  have hl : (0 : Rat) < x.length := by exact_mod_cast List.length_pos_iff.2 hne
  have hnn : ∀ (x y : List Rat), 0 ≤ (x.zipWith (fun a b => (a - b) ^ 2) y).sum := by
    intro x y
    apply List.sum_nonneg
    intro z hz
    rw [List.mem_iff_getElem] at hz
    obtain ⟨i, hi, rfl⟩ := hz
    rw [List.getElem_zipWith]
    exact sq_nonneg _
  have hz : ∀ (x y : List Rat), x.length = y.length → ((x.zipWith (fun a b => (a - b) ^ 2) y).sum = 0 ↔ x = y) := by
    intro x
    induction x with
    | nil => intro y h; cases y with
      | nil => simp
      | cons b y => simp at h
    | cons a x ih => intro y h; cases y with
      | nil => simp at h
      | cons b y =>
        rw [List.zipWith_cons_cons, List.sum_cons, add_eq_zero_iff_of_nonneg (sq_nonneg _) (hnn x y),
          ih y (by simpa using h), List.cons.injEq, sq_eq_zero_iff, sub_eq_zero]
  have hsym : meanSquare x y = meanSquare y x := by
    unfold meanSquare
    rw [h, List.zipWith_comm]
    congr 3
    funext a b; ring
  refine ⟨by rw [hsym], ?_⟩
  have h0 : 0 ≤ meanSquare x y := div_nonneg (hnn x y) (le_of_lt hl)
  rw [Real.sqrt_eq_zero (by exact_mod_cast h0)]
  rw [Rat.cast_eq_zero]
  unfold meanSquare
  rw [div_eq_zero_iff, or_iff_left (ne_of_gt hl)]
  exact hz x y h

example : meanSquare [1, 2] [1, 4] = 2 := by decide +kernel

/-- The sparsity is the share of the elements that are not positive; it lies in [0, 1], is 0 iff all elements are
positive and 1 iff none is. -/
theorem C28_sparsity (tpm : List Rat) (hne : tpm ≠ []) :
    sparsity tpm = (tpm.countP fun x => decide (x ≤ 0) : Nat) / (tpm.length : Rat) ∧
    0 ≤ sparsity tpm ∧ sparsity tpm ≤ 1 ∧
    (sparsity tpm = 0 ↔ ∀ x ∈ tpm, 0 < x) ∧ (sparsity tpm = 1 ↔ ∀ x ∈ tpm, x ≤ 0) := by
  have hl : (0 : Rat) < tpm.length := by exact_mod_cast List.length_pos_iff.2 hne
  have hsplit : tpm.length = (tpm.countP fun x => decide (x > 0)) + tpm.countP fun x => decide (x ≤ 0) := by
    have := List.length_eq_countP_add_countP (fun x => decide (x > 0)) (l := tpm)
    rw [this]
    congr 1
    apply List.countP_congr
    intro x _
    simp
  have e : sparsity tpm = (tpm.countP fun x => decide (x ≤ 0) : Nat) / (tpm.length : Rat) := by
    unfold sparsity
    rw [eq_div_iff (ne_of_gt hl), sub_mul, one_mul, div_mul_cancel₀ _ (ne_of_gt hl)]
    have : (tpm.length : Rat) = ((tpm.countP fun x => decide (x > 0) : Nat) : Rat) + ((tpm.countP fun x => decide (x ≤ 0) : Nat) : Rat) := by
      exact_mod_cast hsplit
    linarith
  refine ⟨e, ?_, ?_, ?_, ?_⟩
  · rw [e]; positivity
  · rw [e, div_le_one hl]; exact_mod_cast List.countP_le_length
  · rw [e, div_eq_zero_iff, or_iff_left (ne_of_gt hl), Nat.cast_eq_zero, List.countP_eq_zero]
    simp
  · rw [e, div_eq_one_iff_eq (ne_of_gt hl), Nat.cast_inj, List.countP_eq_length]
    simp

example : sparsity [0, 1/2, 1/2, 0] = 1/2 := by decide +kernel

end Demod
