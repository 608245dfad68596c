import Verif.Model.Sampling
import Mathlib.Algebra.Order.Field.Rat
import Mathlib.Algebra.Order.BigOperators.Group.List
import Mathlib.Tactic.Linarith
import Mathlib.Tactic.Ring
import Mathlib.Tactic.FieldSimp
import Mathlib.Tactic.Positivity

namespace Demod

theorem cumsumFrom_length (xs : List Rat) (a : Rat) : (cumsumFrom a xs).length = xs.length := by
  induction xs generalizing a with
  | nil => rfl
  | cons x xs ih => simp [cumsumFrom, ih]

@[simp] theorem cumsum_length (xs : List Rat) : (cumsum xs).length = xs.length := cumsumFrom_length xs 0

theorem cumsumFrom_get (xs : List Rat) (a : Rat) (i : Nat) (h : i < xs.length) :
    (cumsumFrom a xs)[i]'(by rw [cumsumFrom_length]; exact h) = a + (xs.take (i + 1)).sum := by
  induction xs generalizing a i with
  | nil => simp at h
  | cons x xs ih =>
    cases i with
    | zero => simp [cumsumFrom]
    | succ i =>
      simp only [cumsumFrom, List.getElem_cons_succ]
      rw [ih _ _ (by simpa using h)]
      simp [add_assoc]

theorem cumsum_get (xs : List Rat) (i : Nat) (h : i < xs.length) :
    (cumsum xs)[i]'(by simpa using h) = (xs.take (i + 1)).sum := by
  simp [cumsum, cumsumFrom_get xs 0 i h]

theorem mcCdf_iff (cdf : List Rat) (u : Rat) (hex : ∃ c ∈ cdf, u < c) (i : Nat) :
    mcCdf cdf u = .ok i ↔
      ∃ h : i < cdf.length, u < cdf[i] ∧ ∀ j (hj : j < i), cdf[j]'(by omega) ≤ u := by
  obtain ⟨c, hc, huc⟩ := hex
  have hne : cdf.map (fun c => decide (c > u)) ≠ [] := by
    intro h; simp at h; subst h; simp at hc
  have hmc : mcCdf cdf u = .ok (((cdf.map (fun c => decide (c > u))).findIdx? (· == true)).getD 0) := by
    unfold mcCdf argmaxBool
    split
    · rename_i h; exact absurd h hne
    · rfl
  rw [hmc]
  cases hf : (cdf.map (fun c => decide (c > u))).findIdx? (· == true) with
  | none =>
    exfalso
    rw [List.findIdx?_eq_none_iff] at hf
    have := hf (decide (c > u)) (List.mem_map.2 ⟨c, hc, rfl⟩)
    simp [huc] at this
  | some k =>
    rw [List.findIdx?_eq_some_iff_getElem] at hf
    obtain ⟨hk, hk1, hk2⟩ := hf
    simp at hk hk1 hk2
    simp only [Option.getD_some, Except.ok.injEq]
    constructor
    · rintro rfl
      exact ⟨hk, hk1, fun j hj => hk2 j hj⟩
    · rintro ⟨h, h1, h2⟩
      rcases Nat.lt_trichotomy k i with hlt | heq | hgt
      · have := h2 k hlt; linarith
      · exact heq
      · have := hk2 i hgt; linarith

theorem mcCdf_none (cdf : List Rat) (u : Rat) (hne : cdf ≠ []) (h : ∀ c ∈ cdf, c ≤ u) :
    mcCdf cdf u = .ok 0 := by
  have hne' : cdf.map (fun c => decide (c > u)) ≠ [] := by simpa using hne
  have hmc : mcCdf cdf u = .ok (((cdf.map (fun c => decide (c > u))).findIdx? (· == true)).getD 0) := by
    unfold mcCdf argmaxBool
    split
    · rename_i h; exact absurd h hne'
    · rfl
  rw [hmc]
  have : (cdf.map (fun c => decide (c > u))).findIdx? (· == true) = none := by
    rw [List.findIdx?_eq_none_iff]
    intro b hb
    obtain ⟨c, hc, rfl⟩ := List.mem_map.1 hb
    simpa using h c hc
  rw [this]; rfl

theorem take_sum_mono (xs : List Rat) (h : ∀ x ∈ xs, 0 ≤ x) {i j : Nat} (hij : i ≤ j) :
    (xs.take i).sum ≤ (xs.take j).sum := by
  have : xs.take j = xs.take i ++ (xs.drop i).take (j - i) := by
    rw [← List.take_add]; congr 1; omega
  rw [this, List.sum_append]
  have : 0 ≤ ((xs.drop i).take (j - i)).sum := by
    apply List.sum_nonneg
    intro x hx
    exact h x (List.mem_of_mem_drop (List.mem_of_mem_take hx))
  linarith

theorem take_succ_sum (xs : List Rat) (i : Nat) (h : i < xs.length) :
    (xs.take (i + 1)).sum = (xs.take i).sum + xs[i] := by
  rw [List.take_succ_eq_append_getElem h, List.sum_append]; simp

theorem sum_take_le (xs : List Rat) (h : ∀ x ∈ xs, 0 ≤ x) (i : Nat) : (xs.take i).sum ≤ xs.sum := by
  have := take_sum_mono xs h (Nat.le_max_left i xs.length)
  rwa [List.take_of_length_le (Nat.le_max_right i xs.length)] at this

theorem mcPdf_iff (pdf : List Rat) (hnn : ∀ x ∈ pdf, 0 ≤ x) (u : Rat) (h0 : 0 ≤ u) (hu : u < pdf.sum)
    (i : Nat) :
    mcCdf (cumsum pdf) u = .ok i ↔
      i < pdf.length ∧ (pdf.take i).sum ≤ u ∧ u < (pdf.take (i + 1)).sum := by
  have hne : pdf ≠ [] := by rintro rfl; simp at hu; linarith
  have hlen : 0 < pdf.length := List.length_pos_iff.2 hne
  have hlast : (cumsum pdf)[pdf.length - 1]'(by simp; omega) = pdf.sum := by
    rw [cumsum_get pdf (pdf.length - 1) (by omega)]
    rw [List.take_of_length_le (by omega)]
  rw [mcCdf_iff (cumsum pdf) u ⟨(cumsum pdf)[pdf.length - 1]'(by simp; omega), List.getElem_mem _, by rw [hlast]; exact hu⟩]
  constructor
  · rintro ⟨h, h1, h2⟩
    have h' : i < pdf.length := by simpa using h
    rw [cumsum_get pdf i h'] at h1
    refine ⟨h', ?_, h1⟩
    cases i with
    | zero => simpa using h0
    | succ i =>
      have := h2 i (by omega)
      rwa [cumsum_get pdf i (by omega)] at this
  · rintro ⟨h, h1, h2⟩
    refine ⟨by simpa using h, by rw [cumsum_get pdf i h]; exact h2, ?_⟩
    intro j hj
    rw [cumsum_get pdf j (by omega)]
    exact le_trans (take_sum_mono pdf hnn (by omega)) h1

theorem exists_mcPdf (pdf : List Rat) (u : Rat) (h0 : 0 ≤ u) (hu : u < pdf.sum) :
    ∃ i, mcCdf (cumsum pdf) u = .ok i := by
  have hne : pdf ≠ [] := by rintro rfl; simp at hu; linarith
  unfold mcCdf argmaxBool
  split
  · rename_i h
    have := congrArg List.length h
    simp at this
    exact absurd this hne
  · exact ⟨_, rfl⟩

theorem mapM_ok_iff {α β : Type} (f : α → Except PyErr β) (xs : List α) (ys : List β) :
    xs.mapM f = .ok ys ↔ ys.length = xs.length ∧
      ∀ k (h : k < xs.length) (h' : k < ys.length), f xs[k] = .ok ys[k] := by
  induction xs generalizing ys with
  | nil =>
    simp only [List.mapM_nil, pure, Except.pure, Except.ok.injEq, List.length_nil]
    constructor
    · rintro rfl; simp
    · rintro ⟨h, _⟩; exact (List.length_eq_zero_iff.1 h).symm
  | cons x xs ih =>
    rw [List.mapM_cons]
    cases hx : f x with
    | error e =>
      simp only [bind, Except.bind]
      constructor
      · intro h; cases h
      · rintro ⟨h1, h2⟩
        have := h2 0 (by simp) (by simp [h1])
        simp [hx] at this
    | ok y =>
      simp only [bind, Except.bind]
      cases hxs : xs.mapM f with
      | error e =>
        simp only
        constructor
        · intro h; cases h
        · rintro ⟨h1, h2⟩
          exfalso
          cases ys with
          | nil => simp at h1
          | cons y' ys =>
            have := (ih ys).2 ⟨by simpa using h1, fun k h h' => by
              have := h2 (k + 1) (by simpa using h) (by simpa using h')
              simpa using this⟩
            rw [hxs] at this; cases this
      | ok ys' =>
        simp only [pure, Except.pure, Except.ok.injEq]
        have hih := (ih ys').1 hxs
        constructor
        · rintro rfl
          refine ⟨by simp [hih.1], ?_⟩
          intro k h h'
          cases k with
          | zero => simpa using hx
          | succ k => simpa using hih.2 k (by simpa using h) (by simpa using h')
        · rintro ⟨h1, h2⟩
          cases ys with
          | nil => simp at h1
          | cons y' ys =>
            have h0 := h2 0 (by simp) (by simp)
            simp only [List.getElem_cons_zero, hx, Except.ok.injEq] at h0
            have hys : xs.mapM f = .ok ys := (ih ys).2 ⟨by simpa using h1, fun k h h' => by
              have := h2 (k + 1) (by simpa using h) (by simpa using h')
              simpa using this⟩
            rw [hxs] at hys
            cases hys
            rw [h0]

end Demod
