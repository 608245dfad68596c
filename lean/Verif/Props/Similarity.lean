import Verif.Lemmas.Similarity
import Verif.Lemmas.Survey

/-! # Comparisons of profiles -/

namespace Demod

/-! ## C100: the edit distance -/

/-- The distance of two profiles of digits is the least number of insertions, deletions and replacements
of single steps that turn one into the other. -/
theorem C100_least_edits_partial (p q : List Int) (hp : Digits p) (hq : Digits q) :
    EditsIn (levenshteinEditDistance p q) p q ∧ ∀ n, EditsIn n p q → levenshteinEditDistance p q ≤ n := by
  rw [levenshtein_digits p q hp hq]
  exact ⟨edits_of_align (align_editDistance p q), fun n h => editDistance_le_edits h⟩

/-- On profiles of digits it is a metric. -/
theorem C100_metric_partial (p q r : List Int) (hp : Digits p) (hq : Digits q) (hr : Digits r) :
    (levenshteinEditDistance p q = 0 ↔ p = q) ∧
    levenshteinEditDistance p q = levenshteinEditDistance q p ∧
    levenshteinEditDistance p r ≤ levenshteinEditDistance p q + levenshteinEditDistance q r := by
  have hpq := C100_least_edits_partial p q hp hq
  have hqp := C100_least_edits_partial q p hq hp
  have hqr := C100_least_edits_partial q r hq hr
  have hpr := C100_least_edits_partial p r hp hr
  refine ⟨⟨fun h => ?_, fun h => ?_⟩, le_antisymm (hpq.2 _ hqp.1.symm) (hqp.2 _ hpq.1.symm), hpr.2 _ (hpq.1.trans hqr.1)⟩
  · have := hpq.1
    rw [h] at this
    cases this
    rfl
  · subst h
    exact Nat.le_zero.1 (hpq.2 0 (.nothing p))

/-- The example of the documentation: from 110111 to 001011 three edits are needed. -/
example : Digits [1, 1, 0, 1, 1, 1] ∧ Digits [0, 0, 1, 0, 1, 1] ∧
    levenshteinEditDistance [1, 1, 0, 1, 1, 1] [0, 0, 1, 0, 1, 1] = 3 := by
  refine ⟨?_, ?_, ?_⟩
  · unfold Digits; decide
  · unfold Digits; decide
  · decide +kernel

/-- The full statement: for all profiles of integers, not only of digits. -/
def C100_full : Prop := ∀ p q : List Int,
  EditsIn (levenshteinEditDistance p q) p q ∧ ∀ n, EditsIn n p q → levenshteinEditDistance p q ≤ n

/-- With a value of two digits, two different profiles of the same length have distance 0. -/
theorem C100_two_digits_counterexample : levenshteinEditDistance [1, 10] [11, 0] = 0 ∧ ([1, 10] : List Int) ≠ [11, 0] := by
  decide +kernel

/-- A single replaced value can also count twice. -/
theorem C100_counted_twice_counterexample : levenshteinEditDistance [5, 10] [5, 23] = 2 ∧ Edit ([5, 10] : List Int) [5, 23] :=
  ⟨by decide +kernel, .replacement [5] [] 10 23⟩

theorem C100_full_fails : ¬ C100_full := by
  intro h
  have := (h [1, 10] [11, 0]).1
  rw [C100_two_digits_counterexample.1] at this
  cases this

/-! ## C101: similarity, variety, counts -/

/-- `profiles_similarity` is refused exactly when the numbers of times differ, and its element `[i, j]` is the
distance of the `i`-th simulated profile to the `j`-th target. -/
theorem C101_similarity {α : Type} (d : List α → List α → Rat) (sim target : Diaries α) :
    (sim.nT ≠ target.nT → profilesSimilarity d sim target = .error .valueError) ∧
    (sim.nT = target.nT → ∃ M, profilesSimilarity d sim target = .ok M ∧ M.length = sim.nP ∧
      ∀ i, i < sim.nP → ∃ row, M[i]? = some row ∧ row.length = target.nP ∧
        ∀ j, j < target.nP → row[j]? = some (d (profile sim i) (profile target j))) := by
  unfold profilesSimilarity
  refine ⟨fun h => by rw [if_neg h], fun h => ⟨_, by rw [if_pos h], by simp, fun i hi => ⟨_, by simp [hi]; rfl, by simp, fun j hj => ?_⟩⟩⟩
  simp [hj]
  rfl

/-- With `average = False`, `profiles_variety` returns one number for every pair of profiles, in the order of the
pairs `(0, 1), (0, 2), …, (1, 2), …`. -/
theorem C101_variety_pairs {α : Type} (d : List α → List α → Rat) (D : Diaries α) :
    ∃ l, profilesVariety d D false = .inr l ∧ 2 * l.length = D.nP * (D.nP - 1) ∧
      ∀ i j, i < j → j < D.nP → l[i * (2 * D.nP - i - 1) / 2 + (j - i - 1)]? = some (d (profile D i) (profile D j)) := by
  refine ⟨pdist d D, rfl, by rw [Nat.mul_comm]; exact pdist_length d D, fun i j hij hj => ?_⟩
  have h := flatMap_range_get (fun a => D.nP - (a + 1)) (fun a k => d (D.row a) (D.row (a + 1 + k))) D.nP i (j - i - 1)
    (by omega) (by omega)
  have e : i * (2 * D.nP - i - 1) / 2 = ∑ a ∈ Finset.range i, (D.nP - (a + 1)) := by
    have := pairs_before D.nP i (by omega)
    obtain ⟨m, hm⟩ : ∃ m, D.nP = i + 1 + m := ⟨D.nP - (i + 1), by omega⟩
    rw [show 2 * D.nP - i - 1 = i + 1 + 2 * m by omega]
    have : i * (i + 1 + 2 * m) = (∑ a ∈ Finset.range i, (D.nP - (a + 1))) * 2 := by
      have e2 : 2 * (D.nP * i) = 2 * ((i + 1 + m) * i) := by rw [hm]
      rw [e2] at this
      nlinarith
    omega
  rw [e]
  unfold pdist
  rw [h, show i + 1 + (j - i - 1) = j by omega]
  rfl

/-- With `average = True` and a symmetric distance, `profiles_variety` is the mean of the distance of a
profile to the others: over all `n (n - 1)` ordered pairs of different profiles. -/
theorem C101_variety_mean {α : Type} (d : List α → List α → Rat) (hd : ∀ p q, d p q = d q p) (D : Diaries α) (h : 2 ≤ D.nP) :
    profilesVariety d D true = .inl (some ((∑ i ∈ Finset.range D.nP, ∑ j ∈ Finset.range D.nP,
      if i = j then 0 else d (profile D i) (profile D j)) / ((D.nP : Rat) * ((D.nP : Rat) - 1)))) := by
  have hl := pdist_length d D
  have hpos : 0 < (pdist d D).length := by
    have : 0 < D.nP * (D.nP - 1) := Nat.mul_pos (by omega) (by omega)
    omega
  have hs : (∑ i ∈ Finset.range D.nP, ∑ j ∈ Finset.range D.nP, if i = j then 0 else d (profile D i) (profile D j)) = 2 * (pdist d D).sum := by
    rw [pdist_sum]
    exact (sum_pairs (fun i j => d (profile D i) (profile D j)) (fun i j => hd _ _) D.nP).symm
  have hc : ((D.nP : Rat) * ((D.nP : Rat) - 1)) = ((pdist d D).length : Rat) * 2 := by
    have : (((pdist d D).length * 2 : Nat) : Rat) = ((D.nP * (D.nP - 1) : Nat) : Rat) := by rw [hl]
    rw [Nat.cast_mul, Nat.cast_mul, Nat.cast_sub (by omega)] at this
    simpa using this.symm
  have hne : ((pdist d D).length : Rat) ≠ 0 := by
    have : ((pdist d D).length : Rat) > 0 := by exact_mod_cast hpos
    exact ne_of_gt this
  unfold profilesVariety npMean
  simp only [if_true]
  rw [if_neg (by omega), hs, hc]
  congr 2
  field_simp

/-- The mean is NaN exactly when there are fewer than two profiles. -/
theorem C101_variety_nan {α : Type} (d : List α → List α → Rat) (D : Diaries α) :
    profilesVariety d D true = .inl none ↔ D.nP ≤ 1 := by
  have hl := pdist_length d D
  unfold profilesVariety npMean
  simp only [if_true]
  constructor
  · intro h
    split at h
    · rename_i h0
      by_contra hc
      have : 0 < D.nP * (D.nP - 1) := Nat.mul_pos (by omega) (by omega)
      omega
    · simp at h
  · intro h
    rw [if_pos]
    have : D.nP * (D.nP - 1) = 0 := by
      rw [Nat.mul_eq_zero]
      omega
    omega

/-- Three profiles of two times, compared by the sum of the absolute differences. -/
def threeProfiles : Diaries Rat := ⟨3, 2, fun p t => (p * p + t : Nat)⟩

/-- The sum of the absolute differences. -/
def cityblock (p q : List Rat) : Rat := (List.zipWith (fun x y => |x - y|) p q).sum

example : (∀ p q, cityblock p q = cityblock q p) ∧ 2 ≤ threeProfiles.nP ∧
    profilesVariety cityblock threeProfiles false = .inr [2, 8, 6] ∧
    profilesVariety cityblock threeProfiles true = .inl (some (16 / 3)) ∧
    profilesSimilarity cityblock threeProfiles threeProfiles = .ok [[0, 2, 8], [2, 0, 6], [8, 6, 0]] := by
  refine ⟨fun p q => ?_, by decide, by decide +kernel, by decide +kernel, by decide +kernel⟩
  unfold cityblock
  rw [List.zipWith_comm]
  simp only [abs_sub_comm]

/-- The documentation promises an array of shape `(n_profiles, n_profiles)` with `average = False`. -/
def C101_full : Prop := ∀ (d : List Rat → List Rat → Rat) (D : Diaries Rat), ∃ l,
  profilesVariety d D false = .inr l ∧ l.length = D.nP * D.nP

/-- Three profiles give three numbers, not nine. -/
theorem C101_shape_counterexample : profilesVariety cityblock threeProfiles false = .inr [2, 8, 6] := by decide +kernel

theorem C101_full_fails : ¬ C101_full := by
  intro h
  obtain ⟨l, hl, hn⟩ := h cityblock threeProfiles
  rw [C101_shape_counterexample] at hl
  cases hl
  exact absurd hn (by decide)

/-- `count` lists the different values of the array once each, in increasing order, every value with the number of
its occurrences; the numbers add up to the size of the array. -/
theorem C101_count {α : Type} [DecidableEq α] (lt : α → α → Bool) (hlt : StrictTotal lt) (xs : List α) :
    ((countValues lt xs).map Prod.fst).Pairwise (fun a b => lt a b = true) ∧
    (∀ v n, (v, n) ∈ countValues lt xs ↔ v ∈ xs ∧ n = xs.count v) ∧
    ((countValues lt xs).map Prod.snd).sum = xs.length := by
  have e : (countValues lt xs).map Prod.fst = npUnique lt xs := by
    unfold countValues
    rw [List.map_map]
    exact List.map_id _
  refine ⟨by rw [e]; exact npUnique_sorted hlt xs, fun v n => ?_, ?_⟩
  · unfold countValues
    simp only [List.mem_map, Prod.mk.injEq]
    constructor
    · rintro ⟨u, hu, rfl, rfl⟩
      exact ⟨(mem_npUnique hlt u xs).1 hu, rfl⟩
    · rintro ⟨hv, rfl⟩
      exact ⟨v, (mem_npUnique hlt v xs).2 hv, rfl, rfl⟩
  · unfold countValues
    rw [List.map_map]
    exact sum_count _ xs (npUnique_nodup hlt xs) fun x hx => (mem_npUnique hlt x xs).2 hx

example : StrictTotal intLt ∧ countValues intLt [3, 1, 3, 2, 3] = [(1, 1), (2, 1), (3, 3)] := ⟨intLt_total, by decide +kernel⟩

end Demod
