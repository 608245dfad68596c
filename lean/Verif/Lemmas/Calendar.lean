import Verif.Spec.Time
import Mathlib.Tactic.IntervalCases
import Mathlib.Tactic.Linarith
import Mathlib.Algebra.Order.Floor.Ring

namespace Demod

theorem isLeap_iff (y : Nat) : isLeap y = true ↔ Leap y := by
  unfold isLeap Leap
  simp only [Bool.and_eq_true, beq_iff_eq, Bool.or_eq_true, bne_iff_ne, Nat.dvd_iff_mod_eq_zero, ne_eq]

theorem daysInMonth_eq (y m : Nat) (h1 : 1 ≤ m) (h2 : m ≤ 12) : daysInMonth y m = monthLength y m := by
  have hl := isLeap_iff y
  unfold daysInMonth monthLength
  by_cases h : Leap y
  · have h' := hl.2 h
    interval_cases m <;> simp [h, h']
  · have h' : ¬ isLeap y = true := fun hc => h (hl.1 hc)
    interval_cases m <;> simp [h, h']

theorem dateOf_add (n y m : Nat) (h : dateOf n = ⟨y, m, 1⟩) (k : Nat) (hk : k < daysInMonth y m) :
    dateOf (n + k) = ⟨y, m, k + 1⟩ := by
  induction k with
  | zero => simpa using h
  | succ k ih =>
    rw [← Nat.add_assoc, dateOf, ih (by omega), Date.next]
    simp only
    rw [if_pos (by omega)]

theorem daysInMonth_pos (y m : Nat) : 0 < daysInMonth y m := by
  unfold daysInMonth; split
  · split <;> omega
  · split <;> omega

theorem dateOf_month (n y m : Nat) (h : dateOf n = ⟨y, m, 1⟩) :
    dateOf (n + daysInMonth y m) = if m < 12 then ⟨y, m + 1, 1⟩ else ⟨y + 1, 1, 1⟩ := by
  have hp := daysInMonth_pos y m
  have h1 := dateOf_add n y m h (daysInMonth y m - 1) (by omega)
  rw [show n + daysInMonth y m = (n + (daysInMonth y m - 1)) + 1 by omega, dateOf, h1, Date.next]
  simp only
  rw [if_neg (by omega)]

theorem daysBeforeMonth_succ (y m : Nat) (h1 : 1 ≤ m) (h2 : m < 12) :
    daysBeforeMonth y (m + 1) = daysBeforeMonth y m + monthLength y m := by
  unfold daysBeforeMonth monthLength
  by_cases h : Leap y <;> interval_cases m <;> simp [h]

theorem dateOf_firsts (n y : Nat) (h : dateOf n = ⟨y, 1, 1⟩) (m : Nat) (h2 : m < 12) :
    dateOf (n + daysBeforeMonth y (m + 1)) = ⟨y, m + 1, 1⟩ := by
  induction m with
  | zero => simpa [daysBeforeMonth] using h
  | succ m ih =>
    have h3 := dateOf_month _ _ _ (ih (by omega))
    rw [if_pos (by omega), daysInMonth_eq y (m + 1) (by omega) (by omega), Nat.add_assoc,
      ← daysBeforeMonth_succ y (m + 1) (by omega) (by omega)] at h3
    exact h3

theorem daysBeforeYear_succ (y : Nat) (h : 1 ≤ y) :
    daysBeforeYear (y + 1) = daysBeforeYear y + daysBeforeMonth y 12 + 31 := by
  obtain ⟨k, rfl⟩ : ∃ k, y = k + 1 := ⟨y - 1, by omega⟩
  have h3 : 400 ∣ k + 1 → 100 ∣ k + 1 := fun h => Dvd.dvd.trans (by decide) h
  have h4 : 100 ∣ k + 1 → 4 ∣ k + 1 := fun h => Dvd.dvd.trans (by decide) h
  have h5 : k / 100 ≤ k := Nat.div_le_self _ _
  unfold daysBeforeYear daysBeforeMonth Leap
  simp only [Nat.add_sub_cancel, Nat.succ_div]
  generalize k / 4 = a at *
  generalize k / 100 = b at *
  generalize k / 400 = c at *
  by_cases d1 : 4 ∣ k + 1 <;> by_cases d2 : 100 ∣ k + 1 <;> by_cases d3 : 400 ∣ k + 1 <;>
    simp only [d1, d2, d3, if_true, if_false, not_true, not_false_iff, true_or, or_true, false_or, and_true, and_false] at * <;> simp at * <;> omega

theorem dateOf_years (y : Nat) : dateOf (daysBeforeYear (y + 1)) = ⟨y + 1, 1, 1⟩ := by
  induction y with
  | zero => rfl
  | succ y ih =>
    have h1 := dateOf_firsts _ _ ih 11 (by omega)
    have h2 := dateOf_month _ _ _ h1
    rw [if_neg (by omega)] at h2
    rw [daysBeforeYear_succ (y + 1) (by omega)]
    exact h2

theorem dateOf_daysBefore (y m d : Nat) (hy : 1 ≤ y) (hm : 1 ≤ m ∧ m ≤ 12) (hd : 1 ≤ d ∧ d ≤ monthLength y m) :
    dateOf (daysBefore y m d) = ⟨y, m, d⟩ := by
  obtain ⟨y, rfl⟩ : ∃ k, y = k + 1 := ⟨y - 1, by omega⟩
  obtain ⟨m, rfl⟩ : ∃ k, m = k + 1 := ⟨m - 1, by omega⟩
  have h1 := dateOf_firsts _ _ (dateOf_years y) m (by omega)
  have h2 := dateOf_add _ _ _ h1 (d - 1) (by rw [daysInMonth_eq _ _ (by omega) (by omega)]; omega)
  unfold daysBefore
  rw [h2]
  congr 1; omega

end Demod
