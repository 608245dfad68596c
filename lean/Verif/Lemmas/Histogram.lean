import Verif.Lemmas.Metrics

namespace Demod

/-- The bin of `x` among `bins` equal bins of [0, M], the last one closed. -/
def binOf (bins : Nat) (M x : Rat) : Nat := min ((x - 0) * bins / (M - 0)).floor.toNat (bins - 1)

theorem histogram_eq (xs : List Rat) (bins : Nat) (M : Rat) (hM : 0 < M) (h : ∀ x ∈ xs, 0 ≤ x ∧ x ≤ M) :
    histogram xs bins M = (List.range bins).map fun i => (xs.map (binOf bins M)).count i := by
  unfold histogram
  have h0 : ¬ M = 0 := ne_of_gt hM
  simp only [h0, if_false]
  rw [List.filter_eq_self.2]
  · rfl
  · intro x hx
    simp [h x hx]

theorem toNat_floor_le (y : Rat) (i : Nat) : y.floor.toNat ≤ i ↔ y < (i : Rat) + 1 := by
  have h1 : y.floor.toNat ≤ i ↔ y.floor < (i : Int) + 1 := by omega
  rw [h1, Rat.floor_lt_iff]
  push_cast
  rfl

theorem binOf_le_iff (bins : Nat) (M x : Rat) (hM : 0 < M) (hb : 0 < bins) (i : Nat) (hi : i + 1 < bins) :
    binOf bins M x ≤ i ↔ x < ((i : Rat) + 1) * (M / bins) := by
  have hbq : (0 : Rat) < bins := by exact_mod_cast hb
  unfold binOf
  have : min ((x - 0) * bins / (M - 0)).floor.toNat (bins - 1) ≤ i ↔ ((x - 0) * bins / (M - 0)).floor.toNat ≤ i := by omega
  rw [this, toNat_floor_le, sub_zero, sub_zero, div_lt_iff₀ hM, ← mul_div_assoc, lt_div_iff₀ hbq]

theorem binOf_lt (bins : Nat) (M x : Rat) (hb : 0 < bins) : binOf bins M x < bins := by
  unfold binOf; omega

theorem binOf_eq_iff (bins : Nat) (M x : Rat) (hM : 0 < M) (hb : 0 < bins) (h0 : 0 ≤ x) (hx : x ≤ M) (i : Nat) (hi : i < bins) :
    binOf bins M x = i ↔ (i : Rat) * (M / bins) ≤ x ∧ (x < ((i : Rat) + 1) * (M / bins) ∨ (i + 1 = bins ∧ x = M)) := by
  have hbq : (0 : Rat) < bins := by exact_mod_cast hb
  have hlt := binOf_lt bins M x hb
  have hlow : i ≤ binOf bins M x ↔ (i : Rat) * (M / bins) ≤ x := by
    rcases i with _ | j
    · simp [h0]
    · have := binOf_le_iff bins M x hM hb j (by omega)
      rw [← not_iff_not, not_le, not_le, Nat.lt_succ_iff, this]
      push_cast
      rfl
  rw [← hlow]
  rcases Nat.lt_or_ge (i + 1) bins with h1 | h1
  · rw [← binOf_le_iff bins M x hM hb i h1]
    constructor
    · rintro rfl; exact ⟨le_refl _, Or.inl (le_refl _)⟩
    · rintro ⟨h2, h3 | ⟨h3, _⟩⟩
      · omega
      · omega
  · have hib : i + 1 = bins := by omega
    have : ((i : Rat) + 1) * (M / bins) = M := by
      rw [← hib]; push_cast; rw [mul_div_assoc']
      have : ((i : Rat) + 1) ≠ 0 := by positivity
      field_simp
    rw [this]
    constructor
    · intro h; exact ⟨by omega, by rcases lt_or_eq_of_le hx with h | h; exact Or.inl h; exact Or.inr ⟨hib, h⟩⟩
    · rintro ⟨h2, _⟩; omega

theorem sum_counts (ys : List Nat) (n : Nat) : ((List.range n).map fun i => ys.count i).sum = ys.countP fun y => decide (y < n) := by
  induction n with
  | zero => simp
  | succ n ih =>
    rw [List.range_succ, List.map_append, List.sum_append, ih]
    simp only [List.map_cons, List.map_nil, List.sum_cons, List.sum_nil, add_zero]
    clear ih
    induction ys with
    | nil => rfl
    | cons a ys ih =>
      rw [List.countP_cons, List.countP_cons, List.count_cons, ← ih]
      rcases Nat.lt_trichotomy a n with h | h | h
      · simp [h, show a ≠ n by omega, show a < n + 1 by omega]; omega
      · simp [h]; omega
      · simp [show ¬ a < n by omega, show a ≠ n by omega, show ¬ a < n + 1 by omega]

theorem sum_cast_div (hs : List Nat) (c : Rat) : (hs.map fun (h : Nat) => (h : Rat) / c).sum = ((hs.sum : Nat) : Rat) / c := by
  induction hs with
  | nil => simp
  | cons a hs ih => rw [List.map_cons, List.sum_cons, ih, List.sum_cons]; push_cast; ring

end Demod
