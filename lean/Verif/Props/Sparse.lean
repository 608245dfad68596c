import Verif.Lemmas.SparseMC

/-!
# C13-C16: sparse transition probability matrices
-/

namespace Demod
open SparseTPM

/-! ## C13 -/

/-- **C13 (refinement).** For a well-formed sparse TPM whose matrices are those of the dense array
`D`, every sequence of reads and assignments (valid or not, any integer key) is observed exactly
as on the dense array, indexed modulo `n_times`. -/
theorem C13_behaves_like_dense_array (s : SparseTPM) (h : s.WF) (D : Nat → List (List Rat))
    (hD : ∀ t, t < s.nTimes → s.getItem (t : Int) = .ok (D t)) (ops : List TpmOp) :
    sparseExec ops s = denseExec s.nStates s.nTimes ops D := by
  have hD' : ∀ t, t < s.nTimes → s.denseAt t = D t := by
    intro t ht
    have := hD t ht
    rw [getItem_wf h, mod_self_of_lt h t ht] at this
    exact Except.ok.inj this
  clear hD
  induction ops generalizing s D with
  | nil => rfl
  | cons op ops ih =>
    cases op with
    | get key =>
      unfold sparseExec denseExec
      rw [getItem_wf h, hD' _ (mod_lt h key), ih s h D hD']
    | set key m =>
      unfold sparseExec denseExec
      rw [setItem_wf h]
      by_cases hs : isSquare s.nStates m = true
      · rw [if_pos hs, if_pos ((isSquare_iff _ _).1 hs)]
        simp only
        congr 1
        refine ih (s.setTo _ m) (setTo_wf h _ m) _ ?_
        intro t ht
        by_cases hc : t = (key % (s.nTimes : Int)).toNat
        · subst hc
          rw [if_pos rfl]
          exact denseAt_setTo_same s _ m ((isSquare_iff _ _).1 hs)
        · rw [if_neg hc, denseAt_setTo_other s _ t m hc]
          exact hD' t ht
      · rw [if_neg hs, if_neg (fun hc => hs ((isSquare_iff _ _).2 hc)), ih s h D hD']

/-- **C13 (construction).** Built from entries `(t, i, j, v)` with no repeated `(t, i, j)`, indices
below `n_states` and all numbers fitting in 16 bits, the object is well formed and `tpm[key]` is the
`n_states × n_states` matrix with `v` at `(i, j)` for the entries of time `key mod n_times` and 0
elsewhere. -/
theorem C13_construction (E : List (Nat × Nat × Nat × Rat)) (n T : Nat) (dead : Option Nat)
    (hE : E ≠ []) (hT : 0 < T)
    (hdist : E.Pairwise fun e f => ¬ (e.1 = f.1 ∧ e.2.1 = f.2.1 ∧ e.2.2.1 = f.2.2.1))
    (hb : ∀ e ∈ E, e.1 < 65536 ∧ e.2.1 < n ∧ e.2.2.1 < n) (hn : n ≤ 65536) :
    ∃ s, SparseTPM.create (E.map (·.1)) (E.map (·.2.1)) (E.map (·.2.2.1)) (E.map (·.2.2.2))
        (some n) (some T) dead = .ok s ∧
      s.WF ∧ s.nStates = n ∧ s.nTimes = T ∧ s.dead = dead ∧
      ∀ key, ∃ M, s.getItem key = .ok M ∧ Square n M ∧
        ∀ i j, i < n → j < n →
          (∀ v, ((key % (T : Int)).toNat, i, j, v) ∈ E → (M.getD i []).getD j 0 = v) ∧
          ((∀ v, ((key % (T : Int)).toNat, i, j, v) ∉ E) → (M.getD i []).getD j 0 = 0) := by
  have hid : ∀ (f : Nat × Nat × Nat × Rat → Nat), (∀ e ∈ E, f e < 65536) → toUint16 (E.map f) = E.map f := by
    intro f hf
    unfold toUint16
    rw [List.map_map]
    apply List.map_congr_left
    intro e he
    exact Nat.mod_eq_of_lt (hf e he)
  have h1 := hid (·.1) (fun e he => (hb e he).1)
  have h2 := hid (·.2.1) (fun e he => by have := (hb e he).2.1; omega)
  have h3 := hid (·.2.2.1) (fun e he => by have := (hb e he).2.2; omega)
  have hlen : E.length ≠ 0 := by intro hc; exact hE (List.length_eq_zero_iff.1 hc)
  let s : SparseTPM := { times := E.map (·.1), indsFrom := E.map (·.2.1), indsTo := E.map (·.2.2.1), values := E.map (·.2.2.2), nStates := n, nTimes := T, dead := dead, iterCount := 0 }
  have hent : s.entries = E := by
    show (E.map (·.1)).zip ((E.map (·.2.1)).zip ((E.map (·.2.2.1)).zip (E.map (·.2.2.2)))) = E
    rw [zip_maps]; simp
  have hwf : s.WF := by
    refine ⟨by simp [s], by simp [s], by simp [s], hT, ?_, ?_⟩
    · intro i hi
      obtain ⟨e, he, rfl⟩ := List.mem_map.1 hi
      exact (hb e he).2.1
    · intro i hi
      obtain ⟨e, he, rfl⟩ := List.mem_map.1 hi
      exact (hb e he).2.2
  refine ⟨s, ?_, hwf, rfl, rfl, rfl, ?_⟩
  · unfold SparseTPM.create
    simp only [List.length_map, Nat.and_self, and_self, not_true, if_false, hlen]
    rw [h1, h2, h3]; rfl
  · intro key
    refine ⟨_, getItem_wf hwf key, ?_, ?_⟩
    · unfold denseAt tabulate Square
      refine ⟨by simp [s], ?_⟩
      intro r hr
      obtain ⟨i, _, rfl⟩ := List.mem_map.1 hr
      simp [s]
    · intro i j hi hj
      show (∀ v, ((key % (T : Int)).toNat, i, j, v) ∈ E → ((s.denseAt (key % (T : Int)).toNat).getD i []).getD j 0 = v) ∧ _
      have e0 : ((s.denseAt (key % (T : Int)).toNat).getD i []).getD j 0 =
          ((E.filter fun e => e.1 == (key % (T : Int)).toNat).map (·.2)).foldl assign (fun _ _ => 0) i j := by
        unfold denseAt tabulate
        rw [hent]
        have hi' : i < s.nStates := hi
        have hj' : j < s.nStates := hj
        simp [List.getD, hi', hj']
      refine ⟨?_, ?_⟩
      · intro v hv
        rw [e0]
        apply assign_hit
        · rw [List.mem_map]
          exact ⟨_, List.mem_filter.2 ⟨hv, by simp⟩, rfl⟩
        · intro e he hc
          obtain ⟨e', he', rfl⟩ := List.mem_map.1 he
          have he' := List.mem_filter.1 he'
          have ht : e'.1 = (key % (T : Int)).toNat := by simpa using he'.2
          by_contra hne
          obtain ⟨a, ha, hae⟩ := List.getElem_of_mem hv
          obtain ⟨b, hb', hbe⟩ := List.getElem_of_mem he'.1
          rcases Nat.lt_trichotomy a b with hab | hab | hab
          · have := List.pairwise_iff_getElem.1 hdist a b ha hb' hab
            rw [hae, hbe] at this
            exact this ⟨ht.symm, hc.1, hc.2⟩
          · subst hab; rw [hae] at hbe; rw [← hbe] at hne; exact hne rfl
          · have := List.pairwise_iff_getElem.1 hdist b a hb' ha hab
            rw [hae, hbe] at this
            exact this ⟨ht, hc.1.symm, hc.2.symm⟩
      · intro hv
        show ((s.denseAt (key % (T : Int)).toNat).getD i []).getD j 0 = 0
        rw [e0, assign_other]
        intro e he hc
        obtain ⟨e', he', rfl⟩ := List.mem_map.1 he
        have he' := List.mem_filter.1 he'
        have ht : e'.1 = (key % (T : Int)).toNat := by simpa using he'.2
        apply hv e'.2.2.2
        have : ((key % (T : Int)).toNat, i, j, e'.2.2.2) = e' := by rw [← ht, hc.1, hc.2]
        rw [this]; exact he'.1

/-- `[m for m in tpm]` from some iterator position: at most `k` calls of `__next__`. -/
def collect (s : SparseTPM) : Nat → Except PyErr (List (List (List Rat)))
  | 0 => .ok []
  | k + 1 =>
    match s.next with
    | .ok (m, s') => (collect s' k).map (m :: ·)
    | .error .stopIteration => .ok []
    | .error e => .error e

/-- **C13 (iteration).** Iterating a readable TPM yields `tpm[0], …, tpm[n_times - 1]` and then
stops. -/
theorem C13_iteration (s : SparseTPM) (D : Nat → List (List Rat))
    (hD : ∀ t, t < s.nTimes → s.getItem (t : Int) = .ok (D t)) (k : Nat) (hk : s.nTimes < k) :
    collect s.iter k = .ok ((List.range s.nTimes).map D) := by
  have gen : ∀ (j m k : Nat), j + m = s.nTimes → m < k →
      collect { s with iterCount := j } k = .ok ((List.range' j m).map D) := by
    intro j m
    induction m generalizing j with
    | zero =>
      intro k hj hk
      cases k with
      | zero => omega
      | succ k =>
        have : ({ s with iterCount := j } : SparseTPM).next = .error .stopIteration := by
          unfold SparseTPM.next; rw [if_neg (by simp; omega)]
        unfold collect
        rw [this]; rfl
    | succ m ih =>
      intro k hj hk
      cases k with
      | zero => omega
      | succ k =>
        have hg : ({ s with iterCount := j } : SparseTPM).getItem (j : Int) = .ok (D j) := hD j (by omega)
        have : ({ s with iterCount := j } : SparseTPM).next = .ok (D j, { s with iterCount := j + 1 }) := by
          unfold SparseTPM.next
          rw [if_pos (by simp; omega)]
          simp only [hg]; rfl
        unfold collect
        rw [this]
        simp only
        rw [ih (j + 1) k (by omega) (by omega)]
        simp [Except.map, List.range'_succ]
  have := gen 0 s.nTimes k (by omega) hk
  rw [List.range_eq_range']
  exact this

/-- Concrete non-trivial case: two times, two states. -/
def exTpm : SparseTPM :=
  { times := [0, 0, 0, 1, 1], indsFrom := [0, 0, 1, 0, 1], indsTo := [0, 1, 1, 1, 0],
    values := [1/2, 1/2, 1, 1, 1], nStates := 2, nTimes := 2, dead := none, iterCount := 0 }

theorem exTpm_wf : exTpm.WF := by
  refine ⟨rfl, rfl, rfl, by decide, by decide, by decide⟩

example : sparseExec [.get 2, .set (-1) [[0, 1], [1/4, 3/4]], .get 1, .set 0 [[1]], .get 4] exTpm =
    [.matrix [[1/2, 1/2], [0, 1]], .done, .matrix [[0, 1], [1/4, 3/4]], .raised .valueError,
      .matrix [[1/2, 1/2], [0, 1]]] := by decide +kernel

example : SparseTPM.create [0, 0, 0, 1, 1] [0, 0, 1, 0, 1] [0, 1, 1, 1, 0] [1/2, 1/2, 1, 1, 1]
    (some 2) (some 2) none = .ok exTpm := by decide +kernel

/-- An empty sparse TPM ignores the sizes asked for: with `n_states=2, n_times=1` every access
raises (`% 0`), where a dense array of zeros would be returned. -/
theorem C13_empty_counterexample :
    (SparseTPM.create [] [] [] [] (some 2) (some 1) none).bind (fun s => s.getItem 0) =
      .error .zeroDivisionError := by decide

/-! ## C14 -/

/-- **C14 (agreement with dense sampling, partial).** Let `M = tpm[time]` and let every household
be in a state whose row of `M` is non-negative and sums to 1, with the entries of that time sorted
by `(from, to)`. For draws with `0 < u ≤ 1` the new state `j` of each household satisfies
`M[q][0]+…+M[q][j-1] < u ≤ M[q][0]+…+M[q][j]`, where `q` is its old state: it is a state of
positive probability, and it is the one dense inverse-cdf sampling returns unless `u` hits a
boundary exactly. Missing: the draw `u = 0` (which `np.random.uniform` can return), for which the
claim is false, see `C14_zero_draw_counterexample`. -/
theorem C14_agrees_with_dense_partial (s : SparseTPM) (h : s.WF) (time : Int) (M : List (List Rat))
    (hM : s.getItem time = .ok M) (hsorted : s.SortedAt (time % (s.nTimes : Int)).toNat)
    (states : List Nat) (us : List Rat) (hlen : us.length = states.length)
    (hst : ∀ q ∈ states, q < s.nStates ∧ (∀ x ∈ M.getD q [], 0 ≤ x) ∧ (M.getD q []).sum = 1)
    (hu : ∀ u ∈ us, 0 < u ∧ u ≤ 1) (fuel : Nat) (hf : 0 < fuel) :
    ∃ out, s.sparseMC fuel time states us = .ok (states, out) ∧ out.length = states.length ∧
      ∀ k (h1 : k < states.length) (h2 : k < us.length) (h3 : k < out.length),
        out[k] < s.nStates ∧ 0 < (M.getD states[k] []).getD out[k] 0 ∧
        ((M.getD states[k] []).take out[k]).sum < us[k] ∧
        us[k] ≤ ((M.getD states[k] []).take (out[k] + 1)).sum ∧
        (us[k] ≠ ((M.getD states[k] []).take (out[k] + 1)).sum →
          mcFrom1dPdf (M.getD states[k] []) [us[k]] = .ok [out[k]]) := by
  obtain ⟨fuel, rfl⟩ : ∃ f, fuel = f + 1 := ⟨fuel - 1, by omega⟩
  rw [getItem_wf h] at hM
  have hM := (Except.ok.inj hM).symm
  generalize ht : (time % (s.nTimes : Int)).toNat = t at hM hsorted
  -- facts about rows
  have hrowlen : ∀ q, q < s.nStates → (M.getD q []).length = s.nStates := by
    intro q hq; rw [hM, dense_row_eq s t q hq hsorted]; simp
  have hto : ∀ q, ∀ e ∈ s.row t q, e.2.2.1 < s.nStates := by
    intro q e he
    have : e ∈ s.entries := (List.mem_filter.1 he).1
    exact h.bt _ (by rw [h.to_eq]; exact List.mem_map_of_mem this)
  have htake : ∀ q, q < s.nStates → ∀ i (hi : i < (s.row t q).length),
      ((M.getD q []).take ((s.row t q)[i]).2.2.1).sum = (((s.row t q).map (·.2.2.2)).take i).sum ∧
      ((M.getD q []).take (((s.row t q)[i]).2.2.1 + 1)).sum = (((s.row t q).map (·.2.2.2)).take (i + 1)).sum := by
    intro q hq i hi
    have hs := row_sorted s t q hsorted
    have hlt := hto q _ (List.getElem_mem hi)
    have e1 : ((M.getD q []).take ((s.row t q)[i]).2.2.1).sum = (((s.row t q).map (·.2.2.2)).take i).sum := by
      rw [hM, dense_row_take s t q _ hq (by omega) hsorted,
        filter_lt_take (fun e : Nat × Nat × Nat × Rat => e.2.2.1) _ hs i hi, List.map_take]
    refine ⟨e1, ?_⟩
    rw [hM, dense_row_take s t q _ hq (by omega) hsorted, ← List.map_take]
    congr 2
    have e3 : (s.row t q).filter (fun e => decide (e.2.2.1 < (s.row t q)[i].2.2.1 + 1)) = (s.row t q).take (i + 1) := by
      by_cases hl : i + 1 < (s.row t q).length
      · have := filter_lt_take (fun e : Nat × Nat × Nat × Rat => e.2.2.1) _ hs (i + 1) hl
        rw [← this]
        apply List.filter_congr
        intro e he
        obtain ⟨m, hm, rfl⟩ := List.getElem_of_mem he
        rcases Nat.lt_or_ge i m with hm' | hm'
        · have h1 := List.pairwise_iff_getElem.1 hs i m hi hm hm'
          rcases Nat.lt_or_ge (i + 1) m with hm'' | hm''
          · have h2 := List.pairwise_iff_getElem.1 hs (i + 1) m hl hm hm''
            simp only [decide_eq_decide]; omega
          · have : m = i + 1 := by omega
            subst this
            simp only [decide_eq_decide]; omega
        · have h2 := List.pairwise_iff_getElem.1 hs m (i + 1) hm hl (by omega)
          rcases Nat.lt_or_ge m i with h3 | h3
          · have h4 := List.pairwise_iff_getElem.1 hs m i hm hi h3
            simp only [decide_eq_decide]; omega
          · have : m = i := by omega
            subst this
            simp only [decide_eq_decide]; omega
      · rw [List.take_of_length_le (by omega), List.filter_eq_self]
        intro e he
        obtain ⟨m, hm, rfl⟩ := List.getElem_of_mem he
        rcases Nat.lt_or_ge m i with h3 | h3
        · have h4 := List.pairwise_iff_getElem.1 hs m i hm hi h3
          simp only [decide_eq_true_eq]; omega
        · have : m = i := by omega
          subst this
          simp
    exact e3
  have hval : ∀ q, q < s.nStates → ∀ e ∈ s.row t q, (M.getD q []).getD e.2.2.1 0 = e.2.2.2 := by
    intro q hq e he
    obtain ⟨i, hi, rfl⟩ := List.getElem_of_mem he
    have hlt := hto q _ (List.getElem_mem hi)
    obtain ⟨e1, e2⟩ := htake q hq i hi
    rw [take_succ_sum _ _ (by rw [hrowlen q hq]; exact hlt), e1,
      take_succ_sum _ _ (by rw [List.length_map]; exact hi)] at e2
    have := add_left_cancel e2
    rw [List.getElem_map] at this
    rw [← this]
    simp only [List.getD]
    rw [List.getElem?_eq_getElem (by rw [← List.getD_eq_getElem?_getD, hrowlen q hq]; exact hlt)]
    simp
  have hnn : ∀ q ∈ states, ∀ e ∈ s.row t q, 0 ≤ e.2.2.2 := by
    intro q hq e he
    rw [← hval q (hst q hq).1 e he]
    apply (hst q hq).2.1
    have hlt := hto q e he
    have hl : e.2.2.1 < (M.getD q []).length := by rw [hrowlen q (hst q hq).1]; exact hlt
    rw [List.getD_eq_getElem?_getD (l := M.getD q []), List.getElem?_eq_getElem hl]
    exact List.getElem_mem hl
  have hsum : ∀ q ∈ states, ((s.row t q).map (·.2.2.2)).sum = 1 := by
    intro q hq
    have hq1 := (hst q hq).1
    have e1 := dense_row_take s t q s.nStates hq1 (le_refl _) hsorted
    have e2 : (s.row t q).filter (fun e => decide (e.2.2.1 < s.nStates)) = s.row t q := by
      rw [List.filter_eq_self]; intro e he; simpa using hto q e he
    rw [e2, ← hM, List.take_of_length_le (by rw [hrowlen q hq1])] at e1
    rw [← e1]; exact (hst q hq).2.2
  have halive : ∀ q ∈ states, s.row t q ≠ [] := by
    intro q hq hc
    have := hsum q hq; rw [hc] at this; simp at this
  have hs' : (s.entries.filter fun e => e.1 == t).Pairwise fun e f => e.2.1 ≤ f.2.1 := by
    refine List.Pairwise.imp ?_ hsorted
    intro e f hef; omega
  have hany : states.any (fun q => !(((s.entries.filter fun e => (e.1 == t) && (uniqueNat states).contains e.2.1).map (·.2.1)).contains q)) = false := by
    rw [List.any_eq_false]
    intro q hq
    have := (not_dead (s := s) t states q hq).2 (halive q hq)
    rw [this]; decide
  -- the lookup for one household
  have hone : ∀ q ∈ states, ∀ u, 0 < u → u ≤ 1 → ∃ j,
      pyGet ((s.entries.filter fun e => (e.1 == t) && (uniqueNat states).contains e.2.1).map (·.2.2.1)) (searchsortedLeft (cumsum ((s.entries.filter fun e => (e.1 == t) && (uniqueNat states).contains e.2.1).map (·.2.2.2))) (u + ((uniqueNat states).idxOf q : Rat))) = .ok j ∧
      j < s.nStates ∧ ((M.getD q []).take j).sum < u ∧ u ≤ ((M.getD q []).take (j + 1)).sum := by
    intro q hq u h0 h1
    unfold pyGet
    rw [flat_lookup t states hs' hnn hsum q hq u h0 h1]
    have hRnn : ∀ x ∈ (s.row t q).map (·.2.2.2), 0 ≤ x := by
      intro x hx
      obtain ⟨e, he, rfl⟩ := List.mem_map.1 hx
      exact hnn q hq e he
    have hne : (s.row t q).map (·.2.2.2) ≠ [] := by simpa using halive q hq
    have hj := searchsorted_lt ((s.row t q).map (·.2.2.2)) hne u (by rw [hsum q hq]; exact h1)
    obtain ⟨h4, h5⟩ := (searchsorted_iff _ hRnn u _ hj).1 rfl
    generalize searchsortedLeft (cumsum ((s.row t q).map (·.2.2.2))) u = i at hj h4 h5
    have hi : i < (s.row t q).length := by simpa using hj
    refine ⟨((s.row t q)[i]).2.2.1, ?_, hto q _ (List.getElem_mem hi), ?_, ?_⟩
    · rw [List.getElem?_eq_getElem (by simpa using hi)]; simp
    · rw [(htake q (hst q hq).1 i hi).1]
      rcases h5 with h5 | h5
      · subst h5; simpa using h0
      · exact h5
    · rw [(htake q (hst q hq).1 i hi).2]; exact h4
  rw [sparseMC_eq h]
  simp only [ht]
  rw [hany]
  let g : Rat × Nat → Except PyErr Nat := fun p =>
    pyGet ((s.entries.filter fun e => (e.1 == t) && (uniqueNat states).contains e.2.1).map (·.2.2.1)) (searchsortedLeft (cumsum ((s.entries.filter fun e => (e.1 == t) && (uniqueNat states).contains e.2.1).map (·.2.2.2))) (p.1 + (p.2 : Rat)))
  obtain ⟨out, hout⟩ := mapM_exists g (us.zip (states.map fun q => (uniqueNat states).idxOf q)) (by
    rintro ⟨u, c⟩ hx
    have hu' := List.of_mem_zip hx
    obtain ⟨q, hq, rfl⟩ := List.mem_map.1 hu'.2
    obtain ⟨j, hj, _⟩ := hone q hq u (hu u hu'.1).1 (hu u hu'.1).2
    exact ⟨j, hj⟩)
  have hm := (mapM_ok_iff _ _ _).1 hout
  have hol : out.length = states.length := by rw [hm.1]; simp [hlen]
  refine ⟨out, ?_, hol, ?_⟩
  · cases hd : s.dead with
    | none => simp only [bind, Except.bind]; rw [hout]
    | some d => simp only [bind, Except.bind]; rw [hout]
  · intro k hk1 hk2 hk3
    have hgk := hm.2 k (by simp [hlen]; omega) hk3
    have hu' := hu _ (List.getElem_mem hk2)
    obtain ⟨j, hj, hj1, hj2, hj3⟩ := hone states[k] (List.getElem_mem hk1) us[k] hu'.1 hu'.2
    have : out[k] = j := by
      have hg2 : g (us[k], (uniqueNat states).idxOf states[k]) = .ok j := hj
      rw [List.getElem_zip, List.getElem_map, hg2] at hgk
      exact (Except.ok.inj hgk).symm
    rw [this]
    have hstk := hst _ (List.getElem_mem hk1)
    have hjl : j < (M.getD states[k] []).length := by rw [hrowlen _ hstk.1]; exact hj1
    refine ⟨hj1, ?_, hj2, hj3, ?_⟩
    · rw [take_succ_sum _ _ hjl] at hj3
      rw [List.getD_eq_getElem?_getD (l := M.getD states[k] []), List.getElem?_eq_getElem hjl]
      simp only [Option.getD_some]; linarith
    · intro hne
      have hlt : us[k] < ((M.getD states[k] []).take (j + 1)).sum := lt_of_le_of_ne hj3 hne
      have hlt' : us[k] < (M.getD states[k] []).sum :=
        lt_of_lt_of_le hlt (sum_take_le _ hstk.2.1 _)
      have := (mcPdf_iff _ hstk.2.1 us[k] (le_of_lt hu'.1) hlt' j).2 ⟨hjl, le_of_lt hj2, hlt⟩
      unfold mcFrom1dPdf mcFrom1dCdf
      simp only [List.mapM_cons, List.mapM_nil, this]; rfl

/-- **C14 (dead states).** With a dead state value, the households in states without outgoing
entry are first moved to that value (in the caller's array too) and then sampled. -/
theorem C14_dead_states (s : SparseTPM) (h : s.WF) (time : Int) (states : List Nat) (us : List Rat)
    (fuel d : Nat) (hd : s.dead = some d) (isDead : Nat → Bool)
    (hdead : ∀ q, isDead q = true ↔ ∀ e ∈ s.entries, ¬ (e.1 = (time % (s.nTimes : Int)).toNat ∧ e.2.1 = q))
    (hsome : ∃ q ∈ states, isDead q = true) :
    s.sparseMC (fuel + 1) time states us =
      s.sparseMC fuel (time % (s.nTimes : Int)) (states.map fun q => if isDead q then d else q) us := by
  have hrow : ∀ q, isDead q = true ↔ s.row (time % (s.nTimes : Int)).toNat q = [] := by
    intro q
    rw [hdead]
    unfold row
    rw [List.filter_eq_nil_iff]
    simp
  have hnn : ((time % (s.nTimes : Int)).toNat : Int) = time % (s.nTimes : Int) := by
    have := Int.emod_nonneg time (b := (s.nTimes : Int)) (by have := h.pos; omega)
    omega
  rw [sparseMC_eq h, hd]
  simp only
  rw [hnn]
  have heq : ∀ q ∈ states, (!(((s.entries.filter fun e => (e.1 == (time % (s.nTimes : Int)).toNat) && (uniqueNat states).contains e.2.1).map (·.2.1)).contains q)) = isDead q := by
    intro q hq
    rw [Bool.eq_iff_iff, hrow]
    simp only [Bool.not_eq_true']
    rw [← Bool.not_eq_true, not_dead _ _ _ hq, not_not]
  have hany : states.any (fun q => !(((s.entries.filter fun e => (e.1 == (time % (s.nTimes : Int)).toNat) && (uniqueNat states).contains e.2.1).map (·.2.1)).contains q)) = true := by
    rw [List.any_eq_true]
    obtain ⟨q, hq, hq'⟩ := hsome
    exact ⟨q, hq, by rw [heq q hq]; exact hq'⟩
  rw [hany]
  simp only
  congr 1
  apply List.map_congr_left
  intro q hq
  simp only [heq q hq]

/-- **C14 (reachability of the order hypothesis).** After `tpm[key] = m` the entries of that time are
in the order assumed above, and those of other times keep theirs. -/
theorem C14_assignment_sorts (s s' : SparseTPM) (h : s.WF) (key : Int) (m : List (List Rat))
    (hs : s.setItem key m = .ok s') :
    s'.WF ∧ s'.SortedAt (key % (s.nTimes : Int)).toNat ∧
      ∀ t, t ≠ (key % (s.nTimes : Int)).toNat → (s'.SortedAt t ↔ s.SortedAt t) := by
  rw [setItem_wf h] at hs
  split at hs
  · have hs := (Except.ok.inj hs).symm
    subst hs
    generalize (key % (s.nTimes : Int)).toNat = t
    refine ⟨setTo_wf h t m, ?_, ?_⟩
    · unfold SortedAt
      rw [setTo_entries, List.filter_append]
      have e1 : ((s.entries.filter fun e => !(e.1 == t)).filter fun e => e.1 == t) = [] := by
        rw [List.filter_filter, List.filter_eq_nil_iff]
        intro e _; simp
      rw [e1, List.nil_append]
      apply List.Pairwise.filter
      rw [List.pairwise_map]
      exact nonzero_sorted s.nStates m
    · intro t' ht'
      unfold SortedAt
      rw [setTo_entries, List.filter_append]
      have e1 : ((s.entries.filter fun e => !(e.1 == t)).filter fun e => e.1 == t') =
          s.entries.filter fun e => e.1 == t' := by
        rw [List.filter_filter]
        apply List.filter_congr
        intro e _
        by_cases he : e.1 = t'
        · simp [he, ht']
        · simp [he]
      have e2 : (((nonzero s.nStates m).map fun e => (t, e)).filter fun e => e.1 == t') = [] := by
        rw [List.filter_eq_nil_iff]
        intro e he
        obtain ⟨e', _, rfl⟩ := List.mem_map.1 he
        simp; exact fun hc => ht' hc.symm
      rw [e1, e2, List.append_nil]
  · cases hs

/-- **C14 (dead dead-state).** If the dead state value has itself no outgoing entry, a household
in a dead state makes the recursion never end, whatever the recursion limit. -/
theorem C14_dead_value_dead_recursion (s : SparseTPM) (h : s.WF) (d : Nat) (hd : s.dead = some d) (time : Int)
    (hdd : ∀ e ∈ s.entries, ¬ (e.1 = (time % (s.nTimes : Int)).toNat ∧ e.2.1 = d))
    (states : List Nat) (us : List Rat) (q : Nat) (hq : q ∈ states)
    (hqd : ∀ e ∈ s.entries, ¬ (e.1 = (time % (s.nTimes : Int)).toNat ∧ e.2.1 = q)) (fuel : Nat) :
    s.sparseMC fuel time states us = .error .recursionError := by
  induction fuel generalizing states q time with
  | zero => rfl
  | succ fuel ih =>
    let isDead : Nat → Bool := fun q => s.entries.all fun e => !((e.1 == (time % (s.nTimes : Int)).toNat) && (e.2.1 == q))
    have hiff : ∀ q, isDead q = true ↔ ∀ e ∈ s.entries, ¬ (e.1 = (time % (s.nTimes : Int)).toNat ∧ e.2.1 = q) := by
      intro q
      simp only [isDead, List.all_eq_true]
      refine forall_congr' fun e => forall_congr' fun _ => ?_
      rw [Bool.not_eq_true', ← Bool.not_eq_true]; simp
    rw [C14_dead_states s h time states us fuel d hd isDead hiff ⟨q, hq, (hiff q).2 hqd⟩]
    have hmm : (time % (s.nTimes : Int)) % (s.nTimes : Int) = time % (s.nTimes : Int) := Int.emod_emod_of_dvd _ (dvd_refl _)
    apply ih (time % (s.nTimes : Int)) (by rw [hmm]; exact hdd) _ d
    · rw [List.mem_map]
      exact ⟨q, hq, by rw [if_pos ((hiff q).2 hqd)]⟩
    · rw [hmm]; exact hdd

/-- A draw of exactly 0 leaves the row: household in state 1 (whose row only allows state 1) is
sent to the last target of the row of state 0. -/
theorem C14_zero_draw_counterexample :
    exTpm.sparseMC 1000 0 [0, 1] [1/4, 0] = .ok ([0, 1], [0, 1]) ∧
    ({ exTpm with indsTo := [0, 0, 1, 1, 0] } : SparseTPM).sparseMC 1000 0 [0, 1] [1/4, 0] = .ok ([0, 1], [0, 0]) ∧
    (({ exTpm with indsTo := [0, 0, 1, 1, 0] } : SparseTPM).getItem 0).map (fun m => m.getD 1 []) = .ok [0, 1] := by
  decide +kernel

/-- Without dead state value a household in a dead state makes the call fail: state 1 is dead. -/
theorem C14_dead_without_value_counterexample :
    ({ times := [0, 0], indsFrom := [0, 2], indsTo := [0, 1], values := [1, 1], nStates := 3,
       nTimes := 1, dead := none, iterCount := 0 } : SparseTPM).sparseMC 1000 0 [0, 1, 2] [1/2, 1/2, 1/2]
        = .error .indexError := by decide +kernel

example : exTpm.SortedAt 0 ∧ exTpm.SortedAt 1 ∧
    exTpm.getItem 2 = .ok [[1/2, 1/2], [0, 1]] := by decide +kernel
example : exTpm.sparseMC 1000 2 [1, 0, 0] [1/10, 1/10, 9/10] = .ok ([1, 0, 0], [1, 0, 1]) := by decide +kernel
example : ({ exTpm with indsFrom := [0, 0, 0, 0, 1], dead := some 0 } : SparseTPM).sparseMC 1000 0 [1, 0] [1/4, 1/4] =
    .ok ([0, 0], [0, 0]) := by decide +kernel

/-! ## C15 -/

/-- **C15 (partial).** The constructor raises `ValueError` whenever `values` has another length
than `times`, or `inds_from` or `inds_to` is shorter than `times`. Missing: `inds_from` or
`inds_to` longer than `times`, see the counterexample. -/
theorem C15_rejects_partial (times indsFrom indsTo : List Nat) (values : List Rat) (ns nt dead : Option Nat)
    (h : values.length ≠ times.length ∨ indsFrom.length < times.length ∨ indsTo.length < times.length) :
    SparseTPM.create times indsFrom indsTo values ns nt dead = .error .valueError := by
  unfold SparseTPM.create
  simp only
  rw [if_pos]
  rintro ⟨h1, h2, h3⟩
  have h4 : indsFrom.length &&& times.length ≤ indsFrom.length := Nat.and_le_left
  have h5 : indsTo.length &&& times.length ≤ indsTo.length := Nat.and_le_left
  rcases h with h | h | h
  · exact h (by rw [← h3, ← h2, ← h1])
  · omega
  · omega

/-- **C15 (exact guard).** With explicit sizes the constructor accepts exactly when `values` is as
long as `times` and the bits of `len(times)` are among those of the other two lengths. -/
theorem C15_guard (times indsFrom indsTo : List Nat) (values : List Rat) (ns nt : Nat) (dead : Option Nat) :
    (∃ s, SparseTPM.create times indsFrom indsTo values (some ns) (some nt) dead = .ok s) ↔
      values.length = times.length ∧ indsFrom.length &&& times.length = times.length ∧
        indsTo.length &&& times.length = times.length := by
  unfold SparseTPM.create
  constructor
  · rintro ⟨s, hs⟩
    simp only at hs
    split at hs
    · cases hs
    · rename_i hc
      simp only [not_not] at hc
      obtain ⟨h1, h2, h3⟩ := hc
      exact ⟨by omega, h1.symm, by omega⟩
  · rintro ⟨h1, h2, h3⟩
    simp only
    rw [if_neg (by simp [h1, h2, h3])]
    by_cases h0 : times.length = 0
    · rw [if_pos h0, if_pos h0]; exact ⟨_, rfl⟩
    · rw [if_neg h0, if_neg h0]; exact ⟨_, rfl⟩

/-- Inputs of lengths 1, 3, 1, 1 are accepted: C15 is false of the code. -/
theorem C15_counterexample :
    (SparseTPM.create [0] [0, 1, 0] [1] [1] none none none).isOk = true := by decide +kernel

/-- **C15 (consequence).** An inconsistent object that was accepted cannot be read: every access
raises. -/
theorem C15_inconsistent_object_unreadable (s : SparseTPM) (key : Int)
    (h : s.indsFrom.length ≠ s.times.length ∨ s.indsTo.length ≠ s.times.length ∨ s.values.length ≠ s.times.length) :
    ∃ e, s.getItem key = .error e := by
  unfold getItem
  cases hk : s.checkTime key with
  | error e => exact ⟨e, rfl⟩
  | ok t =>
    simp only [bind, Except.bind]
    unfold select
    by_cases h1 : s.indsFrom.length = s.times.length
    · by_cases h2 : s.indsTo.length = s.times.length
      · have h3 : ¬ s.values.length = s.times.length := by
          rcases h with h | h | h
          · exact absurd h1 h
          · exact absurd h2 h
          · exact h
        refine ⟨.indexError, ?_⟩
        simp [h1, h2, Ne.symm h3]
      · refine ⟨.indexError, ?_⟩
        simp [h1, Ne.symm h2]
    · refine ⟨.indexError, ?_⟩
      simp [Ne.symm h1]

/-! ## C16 -/

theorem path_ne (p a b : String) (h : a ≠ b) : p ++ a ≠ p ++ b := by
  intro hc
  apply h
  have := congrArg String.toList hc
  simp only [String.toList_append] at this
  exact String.toList_inj.1 (List.append_cancel_left this)

/-- **C16 (partial).** Loading a saved TPM gives the TPM that the constructor builds from the same
entries without explicit sizes and dead state value. So the round trip is the identity on objects
whose sizes are the inferred ones and which have no dead state value. Missing: the other
objects, whose sizes and dead state value are lost. -/
theorem C16_load_save_partial (s : SparseTPM) (path : String) (fs : NpyFS) :
    SparseTPM.load path (s.save path fs) =
      SparseTPM.create s.times s.indsFrom s.indsTo s.values none none none := by
  unfold SparseTPM.load SparseTPM.save loadNats loadRats
  have n1 := path_ne path "_tpm_times.npy" "_tpm_inds_from.npy" (by decide)
  have n2 := path_ne path "_tpm_times.npy" "_tpm_inds_to.npy" (by decide)
  have n3 := path_ne path "_tpm_times.npy" "_tpm_values.npy" (by decide)
  have n4 := path_ne path "_tpm_inds_from.npy" "_tpm_inds_to.npy" (by decide)
  have n5 := path_ne path "_tpm_inds_from.npy" "_tpm_values.npy" (by decide)
  have n6 := path_ne path "_tpm_inds_to.npy" "_tpm_values.npy" (by decide)
  simp only [Dict.set]
  simp only [if_neg n1, if_neg n2, if_neg n3, if_neg n4, if_neg n5, if_neg n6, if_true]
  rfl

/-- **C16 (identity case).** -/
theorem C16_round_trip_partial (s : SparseTPM) (path : String) (fs : NpyFS) (h : s.WF) (hne : s.times ≠ [])
    (h16 : (∀ x ∈ s.times, x < 65536) ∧ (∀ x ∈ s.indsFrom, x < 65536) ∧ (∀ x ∈ s.indsTo, x < 65536))
    (hT : s.nTimes - 1 ∈ s.times) (hT' : ∀ x ∈ s.times, x < s.nTimes)
    (hN : s.nStates - 1 ∈ s.indsFrom ∨ s.nStates - 1 ∈ s.indsTo)
    (hdead : s.dead = none) (hit : s.iterCount = 0) :
    SparseTPM.load path (s.save path fs) = .ok s := by
  rw [C16_load_save_partial]
  have hmax : ∀ (xs : List Nat) (b : Nat), b ∈ xs → (∀ x ∈ xs, x ≤ b) → maxOf xs = .ok b := by
    intro xs b hb hle
    cases xs with
    | nil => cases hb
    | cons x xs =>
      have hfold : ∀ (l : List Nat) (a : Nat), (∀ x ∈ l, x ≤ b) → a ≤ b → (b = a ∨ b ∈ l) → l.foldl max a = b := by
        intro l
        induction l with
        | nil => intro a _ _ h; rcases h with h | h; exact h.symm; cases h
        | cons y l ih =>
          intro a hl ha hb
          rw [List.foldl_cons]
          have hy := hl y (by simp)
          apply ih _ (fun x hx => hl x (by simp [hx])) (by omega)
          rcases hb with hb | hb
          · left; omega
          · rcases List.mem_cons.1 hb with hb | hb
            · left; omega
            · right; exact hb
      exact congrArg Except.ok (hfold xs x (fun y hy => hle y (by simp [hy])) (hle x (by simp)) (List.mem_cons.1 hb))
  have hmax' : ∀ (xs : List Nat), xs ≠ [] → ∃ m, maxOf xs = .ok m ∧ m ∈ xs ∧ ∀ x ∈ xs, x ≤ m := by
    intro xs hx
    cases xs with
    | nil => exact absurd rfl hx
    | cons x xs =>
      refine ⟨xs.foldl max x, rfl, ?_, ?_⟩
      · clear hx
        induction xs generalizing x with
        | nil => simp
        | cons y ys ih =>
          rw [List.foldl_cons]
          have := ih (max x y)
          rcases List.mem_cons.1 this with h | h
          · rw [h]; rcases Nat.le_total x y with h' | h'
            · rw [Nat.max_eq_right h']; simp
            · rw [Nat.max_eq_left h']; simp
          · simp [h]
      · intro z hz
        have hmono : ∀ (l : List Nat) (a : Nat), a ≤ l.foldl max a ∧ ∀ x ∈ l, x ≤ l.foldl max a := by
          intro l
          induction l with
          | nil => intro a; simp
          | cons y l ih =>
            intro a
            rw [List.foldl_cons]
            have := ih (max a y)
            refine ⟨by omega, ?_⟩
            intro x hx
            rcases List.mem_cons.1 hx with rfl | hx
            · omega
            · exact this.2 x hx
        rcases List.mem_cons.1 hz with rfl | hz
        · exact (hmono xs z).1
        · exact (hmono xs x).2 z hz
  have hlen0 : s.times.length ≠ 0 := by simpa using hne
  have hf : s.indsFrom ≠ [] := by intro hc; have := h.lf; rw [hc] at this; simp at this; exact hne (by simpa using this.symm)
  have ht : s.indsTo ≠ [] := by intro hc; have := h.lt; rw [hc] at this; simp at this; exact hne (by simpa using this.symm)
  obtain ⟨a, ha, ha1, ha2⟩ := hmax' _ hf
  obtain ⟨b, hb, hb1, hb2⟩ := hmax' _ ht
  have hc := hmax s.times (s.nTimes - 1) hT (fun x hx => by have := hT' x hx; omega)
  have hab : max a b + 1 = s.nStates := by
    have := h.bf a ha1
    have := h.bt b hb1
    rcases hN with hN | hN
    · have := ha2 _ hN; omega
    · have := hb2 _ hN; omega
  have hu : ∀ xs : List Nat, (∀ x ∈ xs, x < 65536) → toUint16 xs = xs := by
    intro xs hx
    unfold toUint16
    conv => rhs; rw [← List.map_id xs]
    apply List.map_congr_left
    intro x hx'; exact Nat.mod_eq_of_lt (hx x hx')
  unfold SparseTPM.create
  simp only [h.lf, h.lt, h.lv, Nat.and_self, and_self, not_true, if_false, hlen0, ha, hb, hc]
  simp only [bind, Except.bind, pure, Except.pure, hab, hu _ h16.1, hu _ h16.2.1, hu _ h16.2.2]
  have : s.nTimes - 1 + 1 = s.nTimes := by have := h.pos; omega
  rw [this]
  cases s
  simp_all

/-- The dead state value and the sizes are not saved: C16 is false in general. -/
theorem C16_counterexample :
    (SparseTPM.load "p" (({ exTpm with dead := some 1, nStates := 3 } : SparseTPM).save "p" Dict.empty)) = .ok exTpm := by
  rw [C16_load_save_partial]; decide +kernel

example : SparseTPM.load "p" (exTpm.save "p" Dict.empty) = .ok exTpm :=
  C16_round_trip_partial exTpm "p" Dict.empty exTpm_wf (by decide) (by decide) (by decide) (by decide)
    (by decide) rfl rfl

end Demod
