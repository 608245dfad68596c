import Verif.Lemmas.Sampling
import Mathlib.Algebra.Order.Floor.Ring
import Mathlib.Data.Rat.Floor
import Mathlib.Algebra.Order.Floor.Semiring

namespace Demod

theorem sum_map_count (xs : List Nat) (M : Nat) (h : ∀ x ∈ xs, x < M) :
    ((List.range M).map fun i => xs.count i).sum = xs.length := by
  induction xs with
  | nil =>
    simp only [List.count_nil, List.length_nil]
    induction M with
    | zero => rfl
    | succ M ih => rw [List.range_succ]; simp
  | cons x xs ih =>
    have hx : x < M := h x (by simp)
    have e : ((List.range M).map fun i => (x :: xs).count i) =
        (List.range M).map fun i => xs.count i + if x == i then 1 else 0 := by
      apply List.map_congr_left; intro i _; rw [List.count_cons]
    rw [e]
    have hadd : ∀ (l : List Nat) (f g : Nat → Nat), (l.map fun i => f i + g i).sum = (l.map f).sum + (l.map g).sum := by
      intro l f g
      induction l with
      | nil => rfl
      | cons a l ih => simp [ih]; omega
    rw [hadd, ih (fun y hy => h y (by simp [hy]))]
    have : ((List.range M).map fun i => if x == i then 1 else 0).sum = 1 := by
      clear e hadd ih h
      induction M with
      | zero => omega
      | succ M ih =>
        rw [List.range_succ, List.map_append, List.sum_append]
        rcases Nat.lt_or_ge x M with hlt | hge
        · rw [ih hlt]; simp; omega
        · have : x = M := by omega
          subst this
          have hz : ((List.range x).map fun i => if x == i then 1 else 0) = (List.range x).map fun _ => 0 := by
            apply List.map_congr_left
            intro i hi
            have := List.mem_range.1 hi
            rw [if_neg]; simp; omega
          rw [hz]; simp
    rw [this]; simp

theorem lt_bound (inds : List Nat) (x : Nat) (hx : x ∈ inds) :
    x < inds.foldr (fun i a => max (i + 1) a) 0 := by
  induction inds with
  | nil => cases hx
  | cons a l ih =>
    simp only [List.foldr_cons]
    rcases List.mem_cons.1 hx with rfl | h
    · omega
    · have := ih h; omega

theorem bincount_sum (inds : List Nat) (m : Nat) : (bincount inds m).sum = inds.length := by
  unfold bincount
  apply sum_map_count
  intro x hx
  have := lt_bound inds x hx
  omega

theorem bincount_get (inds : List Nat) (m i : Nat) (h : i < (bincount inds m).length) :
    (bincount inds m)[i] = inds.count i := by
  simp [bincount]

theorem bincount_length_of_lt (inds : List Nat) (m : Nat) (h : ∀ x ∈ inds, x < m) :
    (bincount inds m).length = m := by
  unfold bincount
  rw [List.length_map, List.length_range]
  have : inds.foldr (fun i a => max (i + 1) a) 0 ≤ m := by
    induction inds with
    | nil => simp
    | cons a l ih =>
      simp only [List.foldr_cons]
      have := ih (fun x hx => h x (by simp [hx]))
      have := h a (by simp)
      omega
  omega

theorem cumsum_getLast (pdf : List Rat) (h : cumsum pdf ≠ []) : (cumsum pdf).getLast h = pdf.sum := by
  rw [List.getLast_eq_getElem]
  have hl : 0 < pdf.length := by
    have := List.length_pos_iff.2 h; simpa using this
  have := cumsum_get pdf (pdf.length - 1) (by omega)
  rw [List.take_of_length_le (by omega)] at this
  rw [← this]; congr 1; simp

theorem cumsum_mono_nonneg (pdf : List Rat) (hm : (cumsum pdf).Pairwise (· ≤ ·))
    (h0 : ∀ y ∈ cumsum pdf, 0 ≤ y) : ∀ x ∈ pdf, 0 ≤ x := by
  intro x hx
  obtain ⟨i, hi, rfl⟩ := List.getElem_of_mem hx
  have e1 := cumsum_get pdf i hi
  rw [take_succ_sum pdf i hi] at e1
  cases i with
  | zero =>
    have := h0 _ (List.getElem_mem (l := cumsum pdf) (n := 0) (by simpa using hi))
    rw [e1] at this; simpa using this
  | succ j =>
    have e2 := cumsum_get pdf j (by omega)
    have := List.pairwise_iff_getElem.1 hm j (j + 1) (by simp; omega) (by simpa using hi) (by omega)
    rw [e1, e2] at this; linarith

theorem cumsum_pairwise (pdf : List Rat) (hnn : ∀ x ∈ pdf, 0 ≤ x) : (cumsum pdf).Pairwise (· ≤ ·) := by
  rw [List.pairwise_iff_getElem]
  intro i j hi hj hij
  rw [cumsum_get pdf i (by simpa using hi), cumsum_get pdf j (by simpa using hj)]
  exact take_sum_mono pdf hnn (by omega)

theorem zip_tail_of_pairwise (c : List Rat) (h : c.Pairwise (· ≤ ·)) :
    ((c.zip c.tail).all fun p => decide (p.1 ≤ p.2)) = true := by
  induction c with
  | nil => simp
  | cons a c ih =>
    cases c with
    | nil => simp
    | cons b c =>
      simp only [List.tail_cons, List.zip_cons_cons, List.all_cons, Bool.and_eq_true, decide_eq_true_eq]
      exact ⟨(List.pairwise_cons.1 h).1 b (by simp), ih (List.pairwise_cons.1 h).2⟩

theorem checkValid_of_pdf (pdf : List Rat) (hnn : ∀ x ∈ pdf, 0 ≤ x) (hs : pdf.sum = 1) :
    checkValidCdf cdfEps [cumsum pdf] = .ok true := by
  have hne : pdf ≠ [] := by rintro rfl; simp at hs
  have hcne : cumsum pdf ≠ [] := by
    intro h; have := congrArg List.length h; simp at this; exact hne this
  unfold checkValidCdf
  rw [if_neg, if_neg, if_neg, if_neg]
  · simp only [not_not, List.all_eq_true, List.mem_singleton]
    rintro c rfl x hx
    obtain ⟨i, hi, rfl⟩ := List.getElem_of_mem hx
    have hi' : i < pdf.length := by simpa using hi
    rw [cumsum_get pdf i hi']
    have h1 := sum_take_le pdf hnn (i + 1)
    have h2 : 0 ≤ (pdf.take (i + 1)).sum := List.sum_nonneg fun x hx => hnn x (List.mem_of_mem_take hx)
    rw [hs] at h1
    have : (0 : Rat) ≤ cdfEps := by unfold cdfEps; norm_num
    simp [h2]; linarith
  · simp only [not_not]
    simpa using zip_tail_of_pairwise _ (cumsum_pairwise pdf hnn)
  · simp only [not_not]
    simp only [List.all_cons, List.all_nil, Bool.and_true]
    rw [List.getLast?_eq_getLast_of_ne_nil hcne, cumsum_getLast, hs]
    unfold cdfEps; norm_num
  · simpa using hcne

theorem searchsorted_iff (pdf : List Rat) (hnn : ∀ x ∈ pdf, 0 ≤ x) (v : Rat) (i : Nat) (hi : i < pdf.length) :
    searchsortedLeft (cumsum pdf) v = i ↔
      v ≤ (pdf.take (i + 1)).sum ∧ (i = 0 ∨ (pdf.take i).sum < v) := by
  unfold searchsortedLeft
  have hi' : i < (cumsum pdf).length := by simpa using hi
  rw [List.findIdx_eq hi']
  simp only [decide_eq_true_eq, decide_eq_false_iff_not, not_le]
  rw [cumsum_get pdf i hi]
  refine and_congr_right fun _ => ?_
  constructor
  · intro h
    cases i with
    | zero => left; rfl
    | succ j =>
      right
      have := h j (by omega)
      rwa [cumsum_get pdf j (by omega)] at this
  · intro h j hj
    rw [cumsum_get pdf j (by omega)]
    rcases h with h | h
    · omega
    · exact lt_of_le_of_lt (take_sum_mono pdf hnn (by omega)) h

theorem searchsorted_lt (pdf : List Rat) (hne : pdf ≠ []) (v : Rat) (hv : v ≤ pdf.sum) :
    searchsortedLeft (cumsum pdf) v < pdf.length := by
  unfold searchsortedLeft
  have : (cumsum pdf).findIdx (fun x => decide (v ≤ x)) < (cumsum pdf).length := by
    rw [List.findIdx_lt_length]
    have hcne : cumsum pdf ≠ [] := by
      intro h; have := congrArg List.length h; simp at this; exact hne this
    refine ⟨(cumsum pdf).getLast hcne, List.getLast_mem hcne, ?_⟩
    rw [cumsum_getLast]; simpa using hv
  simpa using this

theorem linspace_mem (n : Nat) (hn : 2 ≤ n) (v : Rat) (hv : v ∈ linspace01 n) : v ≤ 1 := by
  unfold linspace01 at hv
  obtain ⟨k, hk, rfl⟩ := List.mem_map.1 hv
  have hk := List.mem_range.1 hk
  rw [if_neg (by omega)]
  have hpos : (0 : Rat) < ((n - 1 : Nat) : Rat) := by
    have : 0 < n - 1 := by omega
    exact_mod_cast this
  rw [div_le_one hpos]
  have : k ≤ n - 1 := by omega
  exact_mod_cast this

theorem linspace_index_lt (n : Nat) (hn : 2 ≤ n) (pdf : List Rat) (hnn : ∀ x ∈ pdf, 0 ≤ x)
    (hs : pdf.sum = 1) : ∀ k ∈ (linspace01 n).map (searchsortedLeft (cumsum pdf)), k < pdf.length := by
  intro k hk
  obtain ⟨v, hv, rfl⟩ := List.mem_map.1 hk
  have hne : pdf ≠ [] := by rintro rfl; simp at hs
  exact searchsorted_lt pdf hne v (by rw [hs]; exact linspace_mem n hn v hv)

theorem countP_range_lt (n m : Nat) : (List.range n).countP (fun k => decide (k < m)) = min n m := by
  induction n with
  | zero => simp
  | succ n ih =>
    rw [List.range_succ, List.countP_append, ih]
    by_cases h : n < m
    · simp [h]; omega
    · simp [h]; omega

theorem countP_range_le (n : Nat) (hn : 1 ≤ n) (x : Rat) (h0 : 0 ≤ x) (h1 : x ≤ (n : Rat) - 1) :
    (((List.range n).countP (fun (k : Nat) => decide ((k : Rat) ≤ x)) : Nat) : Int) = ⌊x⌋ + 1 := by
  have e : (List.range n).countP (fun (k : Nat) => decide ((k : Rat) ≤ x)) =
      (List.range n).countP (fun (k : Nat) => decide (k < ⌊x⌋.toNat + 1)) := by
    apply List.countP_congr
    intro k _
    simp only [decide_eq_true_eq]
    have hf : 0 ≤ ⌊x⌋ := Int.floor_nonneg.2 h0
    have : ((k : Rat) ≤ x) ↔ (k : Int) ≤ ⌊x⌋ := by
      rw [Int.le_floor]; norm_cast
    rw [this]; omega
  rw [e, countP_range_lt]
  have hf : 0 ≤ ⌊x⌋ := Int.floor_nonneg.2 h0
  have hf2 : ⌊x⌋ ≤ (n : Int) - 1 := by
    have : (⌊x⌋ : Rat) ≤ (n : Rat) - 1 := le_trans (Int.floor_le x) h1
    exact_mod_cast this
  omega

theorem linspace_count (n : Nat) (hn : 2 ≤ n) (pdf : List Rat) (hnn : ∀ x ∈ pdf, 0 ≤ x)
    (hs : pdf.sum = 1) (i : Nat) (h : i < pdf.length) :
    ((((linspace01 n).map (searchsortedLeft (cumsum pdf))).count i : Nat) : Int) =
      ⌊((n : Rat) - 1) * (pdf.take (i + 1)).sum⌋ -
          (if i = 0 then -1 else ⌊((n : Rat) - 1) * (pdf.take i).sum⌋) := by
  have hpos : (0 : Rat) < (n : Rat) - 1 := by
    have : (2 : Rat) ≤ n := by exact_mod_cast hn
    linarith
  have hn1 : ((n - 1 : Nat) : Rat) = (n : Rat) - 1 := by
    rw [Nat.cast_sub (by omega)]; simp
  have hP : ∀ j, 0 ≤ (pdf.take j).sum ∧ (pdf.take j).sum ≤ 1 := fun j =>
    ⟨List.sum_nonneg fun x hx => hnn x (List.mem_of_mem_take hx), by
      have := sum_take_le pdf hnn j; rwa [hs] at this⟩
  have hC : ∀ j, ((((List.range n).countP (fun (k : Nat) => decide ((k : Rat) ≤ ((n : Rat) - 1) * (pdf.take j).sum)) : Nat)) : Int)
      = ⌊((n : Rat) - 1) * (pdf.take j).sum⌋ + 1 := fun j =>
    countP_range_le n (by omega) _ (mul_nonneg hpos.le (hP j).1) (by nlinarith [(hP j).2])
  have hcount : ((linspace01 n).map (searchsortedLeft (cumsum pdf))).count i =
      (List.range n).countP (fun (k : Nat) => decide ((k : Rat) ≤ ((n : Rat) - 1) * (pdf.take (i + 1)).sum ∧
        (i = 0 ∨ ((n : Rat) - 1) * (pdf.take i).sum < (k : Rat)))) := by
    rw [List.count_eq_countP, List.countP_map]
    unfold linspace01
    rw [List.countP_map]
    apply List.countP_congr
    intro k hk
    simp only [Function.comp, beq_iff_eq, decide_eq_true_eq]
    rw [searchsorted_iff pdf hnn _ i h, if_neg (by omega), hn1, div_le_iff₀ hpos, lt_div_iff₀ hpos,
      mul_comm (pdf.take (i + 1)).sum, mul_comm (pdf.take i).sum]
  rw [hcount]
  by_cases hi : i = 0
  · rw [if_pos hi]
    have := hC (i + 1)
    simp only [hi, true_or, and_true] at this ⊢
    rw [this]; ring
  · rw [if_neg hi]
    have hsplit : (List.range n).countP (fun (k : Nat) => decide ((k : Rat) ≤ ((n : Rat) - 1) * (pdf.take (i + 1)).sum)) =
        (List.range n).countP (fun (k : Nat) => decide ((k : Rat) ≤ ((n : Rat) - 1) * (pdf.take (i + 1)).sum ∧
        (i = 0 ∨ ((n : Rat) - 1) * (pdf.take i).sum < (k : Rat)))) +
        (List.range n).countP (fun (k : Nat) => decide ((k : Rat) ≤ ((n : Rat) - 1) * (pdf.take i).sum)) := by
      have hle : ((n : Rat) - 1) * (pdf.take i).sum ≤ ((n : Rat) - 1) * (pdf.take (i + 1)).sum :=
        mul_le_mul_of_nonneg_left (take_sum_mono pdf hnn (by omega)) hpos.le
      generalize ((n : Rat) - 1) * (pdf.take i).sum = a at hle
      generalize ((n : Rat) - 1) * (pdf.take (i + 1)).sum = b at hle
      generalize List.range n = l
      induction l with
      | nil => simp
      | cons k l ih =>
        simp only [List.countP_cons, ih, hi, false_or, decide_eq_true_eq]
        by_cases h1 : (k : Rat) ≤ a
        · have h2 : (k : Rat) ≤ b := le_trans h1 hle
          simp [h1, h2, not_lt.2 h1]; omega
        · have h3 := not_le.1 h1
          by_cases h2 : (k : Rat) ≤ b
          · simp [h1, h2, h3]; omega
          · simp [h1, h2]
    have h1 := hC (i + 1)
    have h2 := hC i
    rw [hsplit] at h1
    push_cast at h1 h2
    omega

theorem mapM_exists {α β : Type} (f : α → Except PyErr β) (xs : List α)
    (h : ∀ x ∈ xs, ∃ y, f x = .ok y) : ∃ ys, xs.mapM f = .ok ys := by
  induction xs with
  | nil => exact ⟨[], rfl⟩
  | cons x xs ih =>
    obtain ⟨y, hy⟩ := h x (by simp)
    obtain ⟨ys, hys⟩ := ih fun x hx => h x (by simp [hx])
    exact ⟨y :: ys, by rw [List.mapM_cons, hy, hys]; rfl⟩

theorem countP_congr_index {α β : Type} (p : α → Bool) (q : β → Bool) (xs : List α) (ys : List β)
    (hl : xs.length = ys.length)
    (h : ∀ j (hj : j < xs.length) (hj' : j < ys.length), p xs[j] = q ys[j]) :
    xs.countP p = ys.countP q := by
  induction xs generalizing ys with
  | nil => cases ys with
    | nil => rfl
    | cons y ys => simp at hl
  | cons x xs ih =>
    cases ys with
    | nil => simp at hl
    | cons y ys =>
      rw [List.countP_cons, List.countP_cons, ih ys (by simpa using hl)]
      · have := h 0 (by simp) (by simp)
        simp at this; rw [this]
      · intro j hj hj'
        have := h (j + 1) (by simpa using hj) (by simpa using hj')
        simpa using this

end Demod
