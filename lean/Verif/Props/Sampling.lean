import Verif.Lemmas.Population

/-!
# C09-C12: random draws, distributions, population sampling
-/

namespace Demod

/-! ## C09, C10 -/

/-- **C09 (cdf).** For a non-decreasing cdf and a draw `u` below its last value, the sampled
index is the unique index `i` with `cdf[i-1] ≤ u < cdf[i]` (with no lower condition for
`i = 0`); in particular it is in range. -/
theorem C09_cdf (cdf : List Rat) (hmono : cdf.Pairwise (· ≤ ·)) (u : Rat) (hne : cdf ≠ [])
    (hu : u < cdf.getLast hne) :
    (∃ i, mcCdf cdf u = .ok i) ∧
    ∀ i, mcCdf cdf u = .ok i ↔
      ∃ h : i < cdf.length, u < cdf[i] ∧ (∀ h0 : 0 < i, cdf[i - 1] ≤ u) := by
  have hiff := mcCdf_iff cdf u ⟨_, List.getLast_mem hne, hu⟩
  refine ⟨?_, ?_⟩
  · unfold mcCdf argmaxBool
    split
    · rename_i h; simp at h; exact absurd h hne
    · exact ⟨_, rfl⟩
  · intro i
    rw [hiff]
    constructor
    · rintro ⟨h, h1, h2⟩
      exact ⟨h, h1, fun h0 => h2 (i - 1) (by omega)⟩
    · rintro ⟨h, h1, h2⟩
      refine ⟨h, h1, ?_⟩
      intro j hj
      have h3 := h2 (by omega)
      rcases Nat.lt_or_ge j (i - 1) with hlt | hge
      · exact le_trans (List.pairwise_iff_getElem.1 hmono j (i - 1) (by omega) (by omega) hlt) h3
      · have : j = i - 1 := by omega
        subst this; exact h3

/-- **C09 (pdf).** For a non-negative pdf and a draw `0 ≤ u < Σ pdf`: index `i` is drawn exactly
when `u` lies in the interval `[pdf[0]+…+pdf[i-1], pdf[0]+…+pdf[i])`, whose length is
`pdf[i]`. -/
theorem C09_pdf (pdf : List Rat) (hnn : ∀ x ∈ pdf, 0 ≤ x) (u : Rat) (h0 : 0 ≤ u) (hu : u < pdf.sum) :
    (∃ i, mcFrom1dPdf pdf [u] = .ok [i]) ∧
    ∀ i, mcFrom1dPdf pdf [u] = .ok [i] ↔
      ∃ h : i < pdf.length, (pdf.take i).sum ≤ u ∧ u < (pdf.take i).sum + pdf[i] := by
  have heq : ∀ i, mcFrom1dPdf pdf [u] = .ok [i] ↔ mcCdf (cumsum pdf) u = .ok i := by
    intro i
    unfold mcFrom1dPdf mcFrom1dCdf
    cases h : mcCdf (cumsum pdf) u with
    | error e => simp [h, bind, Except.bind]
    | ok j => simp [h, bind, Except.bind, pure, Except.pure]
  refine ⟨?_, ?_⟩
  · obtain ⟨i, hi⟩ := exists_mcPdf pdf u h0 hu
    exact ⟨i, (heq i).2 hi⟩
  · intro i
    rw [heq, mcPdf_iff pdf hnn u h0 hu i]
    constructor
    · rintro ⟨h, h1, h2⟩; rw [take_succ_sum pdf i h] at h2; exact ⟨h, h1, h2⟩
    · rintro ⟨h, h1, h2⟩; rw [← take_succ_sum pdf i h] at h2; exact ⟨h, h1, h2⟩

/-- **C09 (zero probability).** An index of probability zero is never drawn. -/
theorem C09_zero_probability_never_drawn (pdf : List Rat) (hnn : ∀ x ∈ pdf, 0 ≤ x) (u : Rat)
    (h0 : 0 ≤ u) (hu : u < pdf.sum) (i : Nat) (h : i < pdf.length) (hz : pdf[i] = 0) :
    mcFrom1dPdf pdf [u] ≠ .ok [i] := by
  intro hc
  obtain ⟨_, h1, h2⟩ := ((C09_pdf pdf hnn u h0 hu).2 i).1 hc
  rw [hz] at h2; linarith

/-- **C09 (missing mass).** If the draw is not below any value of the cdf (the distribution
sums to less than 1), index 0 is returned, even if its probability is 0. -/
theorem C09_missing_mass_goes_to_first (cdf : List Rat) (u : Rat) (hne : cdf ≠ [])
    (h : ∀ c ∈ cdf, c ≤ u) : mcCdf cdf u = .ok 0 := mcCdf_none cdf u hne h

example : mcFrom1dPdf [1/4, 0, 1/2, 1/4] [0, 1/4, 3/10, 99/100] = .ok [0, 2, 2, 3] := by decide +kernel
example : (∀ x ∈ ([1/4, 0, 1/2, 1/4] : List Rat), 0 ≤ x) ∧ (1/4 : Rat) < ([1/4, 0, 1/2, 1/4] : List Rat).sum ∧
    (cumsum [1/4, 0, 1/2, 1/4]).Pairwise (· ≤ ·) := by decide +kernel

/-- **C10 (samples of one distribution).** One index per draw, each from its own draw. -/
theorem C10_samples (cdf us : List Rat) (out : List Nat) :
    mcFrom1dCdf cdf us = .ok out ↔ out.length = us.length ∧
      ∀ k (h : k < us.length) (h' : k < out.length), mcFrom1dCdf cdf [us[k]] = .ok [out[k]] := by
  unfold mcFrom1dCdf
  rw [mapM_ok_iff]
  refine and_congr_right fun _ => forall_congr' fun k => forall_congr' fun h => forall_congr' fun h' => ?_
  rw [mapM_ok_iff]
  constructor
  · intro hk
    refine ⟨rfl, ?_⟩
    intro j hj hj'
    have : j = 0 := by simpa using hj
    subst this; simpa using hk
  · rintro ⟨_, hk⟩
    simpa using hk 0 (by simp) (by simp)

/-- **C10 (rows).** For non-negative pdf rows (each with total above its draw) there is one index
per row, and the index of row `k` is the one whose interval in row `k` contains the `k`-th
draw; nothing else influences it. -/
theorem C10_rows (pdfs : List (List Rat)) (us : List Rat) (hlen : us.length = pdfs.length)
    (hnn : ∀ p ∈ pdfs, ∀ x ∈ p, 0 ≤ x) (hu0 : ∀ u ∈ us, 0 ≤ u)
    (hu1 : ∀ k (h : k < pdfs.length) (h' : k < us.length), us[k] < pdfs[k].sum) :
    ∃ out, mcFromPdf pdfs us = .ok out ∧ out.length = pdfs.length ∧
      ∀ k (h : k < pdfs.length) (h' : k < us.length) (h'' : k < out.length) i,
        out[k] = i ↔ ∃ hi : i < pdfs[k].length,
          (pdfs[k].take i).sum ≤ us[k] ∧ us[k] < (pdfs[k].take i).sum + (pdfs[k])[i] := by
  let f : List Rat × Rat → Except PyErr Nat := fun p => mcCdf p.1 p.2
  have hex : ∀ k (h : k < pdfs.length) (h' : k < us.length), ∃ i, mcCdf (cumsum pdfs[k]) us[k] = .ok i :=
    fun k h h' => exists_mcPdf _ _ (hu0 _ (List.getElem_mem h')) (hu1 k h h')
  let out : List Nat := (List.range pdfs.length).map fun k =>
    if h : k < pdfs.length ∧ k < us.length then Classical.choose (hex k h.1 h.2) else 0
  have hout : ∀ k (h : k < pdfs.length) (h' : k < us.length) (h'' : k < out.length),
      mcCdf (cumsum pdfs[k]) us[k] = .ok out[k] := by
    intro k h h' h''
    have : out[k] = Classical.choose (hex k h h') := by simp [out, h, h']
    rw [this]; exact Classical.choose_spec (hex k h h')
  have hol : out.length = pdfs.length := by simp [out]
  refine ⟨out, ?_, hol, ?_⟩
  · unfold mcFromPdf mcFromCdf
    rw [mapM_ok_iff]
    refine ⟨by simp [hol, hlen], ?_⟩
    intro k h h'
    have hk : k < pdfs.length := by omega
    have := hout k hk (by omega) h'
    simpa using this
  · intro k h h' h'' i
    have h1 := hout k h h' h''
    have h2 := mcPdf_iff pdfs[k] (hnn _ (List.getElem_mem h)) us[k] (hu0 _ (List.getElem_mem h')) (hu1 k h h') i
    constructor
    · intro he
      rw [he] at h1
      obtain ⟨hi, h3, h4⟩ := h2.1 h1
      rw [take_succ_sum _ i hi] at h4
      exact ⟨hi, h3, h4⟩
    · rintro ⟨hi, h3, h4⟩
      rw [← take_succ_sum _ i hi] at h4
      have := h2.2 ⟨hi, h3, h4⟩
      rw [h1] at this
      exact Except.ok.inj this

example : mcFromPdf [[1/2, 1/2], [0, 1]] [3/4, 1/10] = .ok [1, 1] := by decide +kernel

/-! ## C11 -/

/-- **C10 (no outcomes).** From a distribution without outcomes nothing can be drawn: as soon as there is a draw, the
functions raise `ValueError`, whatever the other rows are. -/
theorem C10_no_outcome (u : Rat) (us : List Rat) (before after : List (List Rat)) (vs ws : List Rat)
    (hb : before.length = vs.length) :
    mcFrom1dCdf [] (u :: us) = .error .valueError ∧ mcFrom1dPdf [] (u :: us) = .error .valueError ∧
    mcFromCdf (before ++ [] :: after) (vs ++ u :: ws) = .error .valueError := by
  refine ⟨rfl, rfl, ?_⟩
  unfold mcFromCdf
  rw [List.zip_append hb, List.zip_cons_cons]
  generalize before.zip vs = z
  induction z with
  | nil => rfl
  | cons q z ih =>
    obtain ⟨c, v⟩ := q
    rw [List.cons_append, List.mapM_cons, ih]
    cases c <;> rfl

example : mcFromCdf [[1/2, 1], [], [1]] [1/4, 1/4, 1/4] = .error .valueError :=
  (C10_no_outcome (1/4) [] [[1/2, 1]] [[1]] [1/4] [1/4] rfl).2.2

/-- **C11 (rescale_pdf).** It raises exactly when some row sum is not strictly within `epsilon`
of 1; otherwise every returned row is the input row divided by its (positive) sum and sums to
exactly 1. -/
theorem C11_rescale_pdf (eps : Rat) (he : eps ≤ 1) (pdfs : List (List Rat)) :
    ((∀ p ∈ pdfs, 1 - eps < p.sum ∧ p.sum < 1 + eps) →
      ∃ out, rescalePdf eps pdfs = .ok out ∧ out.length = pdfs.length ∧
        ∀ k (h : k < pdfs.length) (h' : k < out.length),
          out[k].sum = 1 ∧ 0 < pdfs[k].sum ∧ out[k] = pdfs[k].map fun x => x / pdfs[k].sum) ∧
    ((∃ p ∈ pdfs, ¬ (1 - eps < p.sum ∧ p.sum < 1 + eps)) → rescalePdf eps pdfs = .error .valueError) := by
  constructor
  · intro h
    refine ⟨pdfs.map fun p => p.map fun x => x / p.sum, ?_, by simp, ?_⟩
    · unfold rescalePdf
      rw [if_pos]
      rw [List.all_eq_true]
      intro p hp
      simp [h p hp]
    · intro k hk hk'
      have hp := h pdfs[k] (List.getElem_mem hk)
      have hpos : 0 < pdfs[k].sum := by linarith
      refine ⟨?_, hpos, by simp⟩
      simp only [List.getElem_map]
      have hs : ∀ (xs : List Rat) (c : Rat), (xs.map fun x => x / c).sum = xs.sum / c := by
        intro xs c
        induction xs with
        | nil => simp
        | cons x xs ih => simp [ih, add_div]
      rw [hs, div_self (ne_of_gt hpos)]
  · rintro ⟨p, hp, hn⟩
    unfold rescalePdf
    rw [if_neg]
    intro hall
    rw [List.all_eq_true] at hall
    have := hall p hp
    simp at this
    exact hn ⟨this.2, this.1⟩

/-- **C11 (rescale_cdf).** Raises unless every row ends strictly within `epsilon` of 1; otherwise
every returned row is the input row divided by its last value, and ends in exactly 1. -/
theorem C11_rescale_cdf (eps : Rat) (he : eps ≤ 1) (cdfs : List (List Rat)) :
    ((∀ c ∈ cdfs, ∃ l, c.getLast? = some l ∧ 1 - eps < l ∧ l < 1 + eps) →
      ∃ out, rescaleCdf eps cdfs = .ok out ∧ out.length = cdfs.length ∧
        ∀ k (h : k < cdfs.length) (h' : k < out.length), ∃ l, cdfs[k].getLast? = some l ∧
          out[k] = cdfs[k].map (fun x => x / l) ∧ out[k].getLast? = some 1) ∧
    ((∃ c ∈ cdfs, ¬ ∃ l, c.getLast? = some l ∧ 1 - eps < l ∧ l < 1 + eps) →
      rescaleCdf eps cdfs = .error .valueError) := by
  constructor
  · intro h
    have hne : ¬ (cdfs.any (·.isEmpty) = true) := by
      rw [List.any_eq_true]
      rintro ⟨c, hc, he⟩
      obtain ⟨l, hl, _⟩ := h c hc
      simp at he; subst he; simp at hl
    refine ⟨cdfs.map fun c => match c.getLast? with
      | some l => c.map fun x => x / l
      | none => [], ?_, by simp, ?_⟩
    · unfold rescaleCdf
      rw [if_neg hne, if_pos]
      · rfl
      · rw [List.all_eq_true]
        intro c hc
        obtain ⟨l, hl, h1, h2⟩ := h c hc
        simp [hl, h1, h2]
    · intro k hk hk'
      obtain ⟨l, hl, h1, h2⟩ := h cdfs[k] (List.getElem_mem hk)
      have hpos : l ≠ 0 := by intro h0; rw [h0] at h1; linarith
      refine ⟨l, hl, by simp [hl], ?_⟩
      simp [hl, div_self hpos]
  · rintro ⟨c, hc, hn⟩
    unfold rescaleCdf
    split
    · rfl
    · rw [if_neg]
      intro hall
      rw [List.all_eq_true] at hall
      have := hall c hc
      split at this
      · rename_i l hl
        simp at this
        exact hn ⟨l, hl, this.2, this.1⟩
      · cases this

/-- A valid cdf row, in words: not empty, non-decreasing, values in `[0, 1+eps]`, ending strictly
within `eps` of 1. -/
def ValidCdfRow (eps : Rat) (c : List Rat) : Prop :=
  c ≠ [] ∧ c.Pairwise (· ≤ ·) ∧ (∀ x ∈ c, 0 ≤ x ∧ x ≤ 1 + eps) ∧
    ∀ h : c ≠ [], 1 - eps < c.getLast h ∧ c.getLast h < 1 + eps

theorem zip_tail_pairwise (c : List Rat) :
    ((c.zip c.tail).all fun p => decide (p.1 ≤ p.2)) = true ↔ c.Pairwise (· ≤ ·) := by
  induction c with
  | nil => simp
  | cons a c ih =>
    cases c with
    | nil => simp
    | cons b c =>
      simp only [List.tail_cons, List.zip_cons_cons, List.all_cons, Bool.and_eq_true, decide_eq_true_eq] at ih ⊢
      rw [ih, List.pairwise_cons (a := a)]
      constructor
      · rintro ⟨hab, hp⟩
        refine ⟨?_, hp⟩
        intro x hx
        rcases List.mem_cons.1 hx with rfl | hx
        · exact hab
        · exact le_trans hab ((List.pairwise_cons.1 hp).1 x hx)
      · rintro ⟨h1, h2⟩
        exact ⟨h1 b (by simp), h2⟩

/-- **C11 (check_valid_cdf).** It accepts exactly the arrays whose rows are all valid cdfs and
raises `ValueError` on all others. -/
theorem C11_check_valid_cdf (eps : Rat) (cdfs : List (List Rat)) :
    (checkValidCdf eps cdfs = .ok true ↔ ∀ c ∈ cdfs, ValidCdfRow eps c) ∧
    (checkValidCdf eps cdfs = .error .valueError ↔ ¬ ∀ c ∈ cdfs, ValidCdfRow eps c) := by
  have key : checkValidCdf eps cdfs = .ok true ↔ ∀ c ∈ cdfs, ValidCdfRow eps c := by
    unfold checkValidCdf
    constructor
    · intro h
      split at h
      · cases h
      rename_i h1
      split at h
      · cases h
      rename_i h2
      split at h
      · cases h
      rename_i h3
      split at h
      · cases h
      rename_i h4
      simp only [not_not] at h2 h3 h4
      rw [List.all_eq_true] at h2 h3 h4
      intro c hc
      have hne : c ≠ [] := by
        rintro rfl; apply h1; rw [List.any_eq_true]; exact ⟨[], hc, rfl⟩
      refine ⟨hne, (zip_tail_pairwise c).1 (h3 c hc), ?_, ?_⟩
      · intro x hx
        have := h4 c hc
        rw [List.all_eq_true] at this
        have := this x hx
        simp at this
        exact ⟨this.2, this.1⟩
      · intro hne'
        have := h2 c hc
        rw [List.getLast?_eq_getLast_of_ne_nil hne'] at this
        simpa using this
    · intro h
      rw [if_neg, if_neg, if_neg, if_neg]
      · simp only [not_not, List.all_eq_true]
        intro c hc x hx
        have := (h c hc).2.2.1 x hx
        simp [this.1, this.2]
      · simp only [not_not]
        rw [List.all_eq_true]
        intro c hc; exact (zip_tail_pairwise c).2 (h c hc).2.1
      · simp only [not_not]
        rw [List.all_eq_true]
        intro c hc
        rw [List.getLast?_eq_getLast_of_ne_nil (h c hc).1]
        simpa using (h c hc).2.2.2 (h c hc).1
      · rw [List.any_eq_true]
        rintro ⟨c, hc, he⟩
        simp at he
        exact (h c hc).1 he
  refine ⟨key, ?_⟩
  rw [← key]
  unfold checkValidCdf
  constructor
  · intro h hc; rw [h] at hc; cases hc
  · intro h
    split
    · rfl
    split
    · rfl
    split
    · rfl
    split
    · rfl
    · rename_i h1 h2 h3 h4
      exfalso; apply h
      rw [if_neg h1, if_neg h2, if_neg h3, if_neg h4]

example : checkValidCdf cdfEps [[0, 1/2, 1/2, 1], [1/3, 1]] = .ok true := by decide +kernel
example : checkValidCdf cdfEps [[0, 1/2, 1/3, 1]] = .error .valueError := by decide +kernel
example : rescalePdf (1/10) [[1/2, 9/20]] = .ok [[10/19, 9/19]] := by decide +kernel

/-! ## C12 -/

/-- **C12 (total).** Whatever the algorithm, if `sample_population` returns, the counts sum to
the number of samples asked for. -/
theorem C12_counts_sum (n : Nat) (pdf : List Rat) (algo : PopAlgo) (counts : List Nat)
    (hmc : ∀ us, algo = .monteCarlo us → us.length = n)
    (h : samplePopulation n pdf algo = .ok counts) : counts.sum = n := by
  unfold samplePopulation at h
  simp only at h
  cases hv : checkValidCdf cdfEps [cumsum pdf] with
  | error e => rw [hv] at h; cases h
  | ok b =>
    rw [hv] at h
    cases algo with
    | realPopulation =>
      simp only [bind, Except.bind] at h
      have := Except.ok.inj h
      rw [← this, bincount_sum]; simp [linspace01]
    | monteCarlo us =>
      simp only [bind, Except.bind] at h
      cases hm : mcFrom1dCdf (cumsum pdf) us with
      | error e => rw [hm] at h; cases h
      | ok inds =>
        rw [hm] at h
        have := Except.ok.inj h
        rw [← this, bincount_sum]
        unfold mcFrom1dCdf at hm
        rw [mapM_ok_iff] at hm
        rw [hm.1]; exact hmc us rfl
    | other => cases h

/-- **C12 (invalid pdf).** A pdf with a negative entry, or whose sum is off by `1e-6` or more, is
rejected with `ValueError`; an unknown algorithm with `NotImplementedError`. -/
theorem C12_rejects (n : Nat) (pdf : List Rat) (algo : PopAlgo)
    (h : pdf.sum ≤ 1 - cdfEps ∨ 1 + cdfEps ≤ pdf.sum ∨ ∃ x ∈ pdf, x < 0) :
    samplePopulation n pdf algo = .error .valueError := by
  have hv : checkValidCdf cdfEps [cumsum pdf] = .error .valueError := by
    rw [(C11_check_valid_cdf cdfEps [cumsum pdf]).2]
    intro hall
    obtain ⟨hne, hmono, hb, hl⟩ := hall (cumsum pdf) (by simp)
    have hl := hl hne
    rw [cumsum_getLast] at hl
    rcases h with h | h | ⟨x, hx, hx0⟩
    · linarith [hl.1]
    · linarith [hl.2]
    · exact absurd (cumsum_mono_nonneg pdf hmono (fun y hy => (hb y hy).1) x hx) (not_le.2 hx0)
  unfold samplePopulation
  simp only [hv]; rfl

/-- **C12 (allocation).** For a pdf of non-negative numbers summing to 1 and at least two samples,
the default algorithm returns one count per entry: `⌊(n-1)·P(i+1)⌋ - ⌊(n-1)·P(i)⌋` for `i ≥ 1`
and `⌊(n-1)·P(1)⌋ + 1` for `i = 0`, where `P(i)` is the sum of the first `i` probabilities.
So each entry but the first gets `(n-1)·pdf[i]` up to less than one sample. -/
theorem C12_real_population (n : Nat) (hn : 2 ≤ n) (pdf : List Rat) (hnn : ∀ x ∈ pdf, 0 ≤ x)
    (hs : pdf.sum = 1) :
    ∃ counts, samplePopulation n pdf .realPopulation = .ok counts ∧
      counts.length = pdf.length ∧ counts.sum = n ∧
      (∀ i (h : i < pdf.length) (h' : i < counts.length),
        (counts[i] : Int) = ⌊((n : Rat) - 1) * (pdf.take (i + 1)).sum⌋ -
          (if i = 0 then -1 else ⌊((n : Rat) - 1) * (pdf.take i).sum⌋)) ∧
      (∀ i (h : i < pdf.length) (h' : i < counts.length), 0 < i →
        |(counts[i] : Rat) - ((n : Rat) - 1) * pdf[i]| < 1) ∧
      (∀ h : 0 < pdf.length, ∀ h' : 0 < counts.length,
        0 < (counts[0] : Rat) - ((n : Rat) - 1) * pdf[0] ∧
          (counts[0] : Rat) - ((n : Rat) - 1) * pdf[0] ≤ 1) := by
  have hne : pdf ≠ [] := by rintro rfl; simp at hs
  have hv := checkValid_of_pdf pdf hnn hs
  refine ⟨bincount ((linspace01 n).map (searchsortedLeft (cumsum pdf))) (cumsum pdf).length, ?_, ?_, ?_, ?_⟩
  · unfold samplePopulation; simp only [hv]; rfl
  · rw [bincount_length_of_lt, cumsum_length]
    intro k hk
    rw [cumsum_length]
    exact linspace_index_lt n hn pdf hnn hs k hk
  · rw [bincount_sum]; simp [linspace01]
  · have hfl : ∀ i (h : i < pdf.length) (h' : i < (bincount ((linspace01 n).map (searchsortedLeft (cumsum pdf))) (cumsum pdf).length).length),
        (((bincount ((linspace01 n).map (searchsortedLeft (cumsum pdf))) (cumsum pdf).length)[i] : Nat) : Int) =
          ⌊((n : Rat) - 1) * (pdf.take (i + 1)).sum⌋ -
          (if i = 0 then -1 else ⌊((n : Rat) - 1) * (pdf.take i).sum⌋) := by
      intro i h h'
      rw [bincount_get]
      exact linspace_count n hn pdf hnn hs i h
    refine ⟨hfl, ?_, ?_⟩
    · intro i h h' hi
      have e := hfl i h h'
      rw [if_neg (by omega), take_succ_sum pdf i h] at e
      have e' : ((((bincount ((linspace01 n).map (searchsortedLeft (cumsum pdf))) (cumsum pdf).length)[i] : Nat) : Int) : Rat) =
        (⌊((n : Rat) - 1) * ((pdf.take i).sum + pdf[i])⌋ : Rat) - (⌊((n : Rat) - 1) * (pdf.take i).sum⌋ : Rat) := by
        rw [e]; push_cast; ring
      simp only [Int.cast_natCast] at e'
      rw [e', abs_lt]
      have f1 := Int.floor_le (((n : Rat) - 1) * ((pdf.take i).sum + pdf[i]))
      have f2 := Int.lt_floor_add_one (((n : Rat) - 1) * ((pdf.take i).sum + pdf[i]))
      have f3 := Int.floor_le (((n : Rat) - 1) * (pdf.take i).sum)
      have f4 := Int.lt_floor_add_one (((n : Rat) - 1) * (pdf.take i).sum)
      constructor <;> nlinarith
    · intro h h'
      have e := hfl 0 h h'
      rw [if_pos rfl, take_succ_sum pdf 0 h] at e
      have e' : ((((bincount ((linspace01 n).map (searchsortedLeft (cumsum pdf))) (cumsum pdf).length)[0] : Nat) : Int) : Rat) =
        (⌊((n : Rat) - 1) * pdf[0]⌋ : Rat) + 1 := by
        rw [e]; simp
      simp only [Int.cast_natCast] at e'
      rw [e']
      have f1 := Int.floor_le (((n : Rat) - 1) * pdf[0])
      have f2 := Int.lt_floor_add_one (((n : Rat) - 1) * pdf[0])
      generalize ((n : Rat) - 1) * pdf[0] = x at f1 f2 ⊢
      generalize (⌊x⌋ : Rat) = y at f1 f2 ⊢
      exact ⟨sub_pos.2 f2, by linarith⟩

/-- **C12 (zero probability, partial).** With the default algorithm no sample falls on a
zero-probability entry, except possibly on the first one. Missing: the first entry, see
`C12_first_entry_counterexample`. -/
theorem C12_zero_probability_partial (n : Nat) (hn : 2 ≤ n) (pdf : List Rat) (hnn : ∀ x ∈ pdf, 0 ≤ x)
    (hs : pdf.sum = 1) (counts : List Nat) (hc : samplePopulation n pdf .realPopulation = .ok counts)
    (i : Nat) (h : i < pdf.length) (h' : i < counts.length) (hi : 0 < i) (hz : pdf[i] = 0) :
    counts[i] = 0 := by
  obtain ⟨c, hc', _, _, hfl, _⟩ := C12_real_population n hn pdf hnn hs
  rw [hc] at hc'
  have := Except.ok.inj hc'
  subst this
  have e := hfl i h h'
  rw [if_neg (by omega), take_succ_sum pdf i h, hz, add_zero, sub_self] at e
  exact_mod_cast e

/-- **C12 (Monte Carlo).** With `n` draws in `[0,1)` and a non-negative pdf summing to 1 there is
one count per entry and entry `i` counts exactly the draws inside its interval, so a
zero-probability entry gets none. -/
theorem C12_monte_carlo (pdf us : List Rat) (hnn : ∀ x ∈ pdf, 0 ≤ x) (hs : pdf.sum = 1)
    (hus : ∀ u ∈ us, 0 ≤ u ∧ u < 1) :
    ∃ counts, samplePopulation us.length pdf (.monteCarlo us) = .ok counts ∧
      counts.length = pdf.length ∧
      ∀ i (h : i < pdf.length) (h' : i < counts.length),
        counts[i] = us.countP (fun u => decide ((pdf.take i).sum ≤ u ∧ u < (pdf.take i).sum + pdf[i])) ∧
        (pdf[i] = 0 → counts[i] = 0) := by
  have hv := checkValid_of_pdf pdf hnn hs
  have hex : ∀ u ∈ us, ∃ i, mcCdf (cumsum pdf) u = .ok i := fun u hu =>
    exists_mcPdf pdf u (hus u hu).1 (by rw [hs]; exact (hus u hu).2)
  obtain ⟨inds, hinds⟩ := mapM_exists (mcCdf (cumsum pdf)) us hex
  have hm := (mapM_ok_iff _ _ _).1 hinds
  refine ⟨bincount inds (cumsum pdf).length, ?_, ?_, ?_⟩
  · unfold samplePopulation mcFrom1dCdf; simp only [hv, hinds]; rfl
  · rw [bincount_length_of_lt, cumsum_length]
    intro k hk
    obtain ⟨j, hj, rfl⟩ := List.getElem_of_mem hk
    have hju : j < us.length := by omega
    have := hm.2 j hju hj
    have hu := hus _ (List.getElem_mem hju)
    rw [mcPdf_iff pdf hnn _ hu.1 (by rw [hs]; exact hu.2)] at this
    simpa using this.1
  · intro i h h'
    have hcount : (bincount inds (cumsum pdf).length)[i] =
        us.countP (fun u => decide ((pdf.take i).sum ≤ u ∧ u < (pdf.take i).sum + pdf[i])) := by
      rw [bincount_get, List.count_eq_countP]
      apply countP_congr_index _ _ _ _ hm.1
      intro j hj hj'
      have := hm.2 j hj' hj
      have hu := hus _ (List.getElem_mem hj')
      have hiff := mcPdf_iff pdf hnn _ hu.1 (by rw [hs]; exact hu.2) i
      rw [take_succ_sum pdf i h] at hiff
      have hb : (inds[j] = i) ↔ ((pdf.take i).sum ≤ us[j] ∧ us[j] < (pdf.take i).sum + pdf[i]) := by
        constructor
        · intro he; rw [he] at this; exact (hiff.1 this).2
        · intro he
          have h2 := hiff.2 ⟨h, he⟩
          rw [this] at h2; exact Except.ok.inj h2
      by_cases hh : inds[j] = i
      · rw [decide_eq_true (hb.1 hh)]; simp [hh]
      · rw [decide_eq_false (fun hc => hh (hb.2 hc))]; simp [hh]
    refine ⟨hcount, ?_⟩
    intro hz
    rw [hcount, List.countP_eq_zero]
    intro u hu
    rw [hz]; simp

/-- The default algorithm gives the first entry a sample although its probability is 0: the
English claim C12 is false for it. -/
theorem C12_first_entry_counterexample :
    samplePopulation 3 [0, 1] .realPopulation = .ok [1, 2] := by decide +kernel

/-- With a pdf accepted although it sums to slightly less than one, the default algorithm
returns one more count than the pdf has entries. -/
theorem C12_extra_entry_counterexample :
    samplePopulation 2 [1/2, 1/2 - 1/2000000] .realPopulation = .ok [1, 0, 1] := by decide +kernel

example : samplePopulation 11 [3/10, 1/5, 0, 1/2] .realPopulation = .ok [4, 2, 0, 5] := by decide +kernel
example : samplePopulation 3 [3/10, 1/5, 0, 1/2] (.monteCarlo [1/10, 9/10, 1/2]) = .ok [1, 0, 0, 2] := by
  decide +kernel

end Demod
