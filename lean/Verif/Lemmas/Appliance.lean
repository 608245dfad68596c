import Verif.Model.Appliance
import Mathlib.Tactic.Linarith
import Mathlib.Tactic.NormNum
import Mathlib.Tactic.Ring

/-! # Lemmas about appliances -/

namespace Demod

theorem truncRat_of_nonneg {x : Rat} (h : 0 ≤ x) : truncRat x = ⌊x⌋ := by unfold truncRat; rw [if_pos h]

theorem truncRat_natCast (n : Nat) : truncRat (n : Rat) = n := by
  rw [truncRat_of_nonneg (by positivity)]; exact Int.floor_natCast n

theorem pyGetInt_nat {α : Type} (xs : List α) (n : Nat) (h : n < xs.length) : pyGetInt xs (n : Int) = .ok xs[n] := by
  unfold pyGetInt
  rw [if_pos (by omega)]
  unfold pyGet
  simp [h]

namespace Appl

theorem occStep_blocked (a : Appl) (s : ApplState) (i : OccInput) (hu : 0 ≤ i.u) (h : a.available s = false) :
    a.occStep s i = decrement (a.switchOffInactive i.active s) := by
  unfold occStep
  simp only [h, Bool.false_eq_true, if_false, zero_mul]
  rw [if_neg (by linarith)]

theorem not_available {a : Appl} {s : ApplState} (h : 0 < s.left ∨ 0 < s.refresh ∨ a.owned = false) : a.available s = false := by
  unfold available
  rcases h with h | h | h
  · simp [h]
  · simp [h]
  · simp [h]

theorem switchOffInactive_active (a : Appl) (s : ApplState) (n : Nat) (h : a.switchOff = true → 0 < n) : a.switchOffInactive n s = s := by
  unfold switchOffInactive
  rw [if_neg]
  intro hc
  simp only [Bool.and_eq_true, decide_eq_true_eq] at hc
  have := h hc.2
  omega

/-- A run in which the appliance cannot be switched on nor off. -/
theorem occRun_blocked (a : Appl) (is : List OccInput) : ∀ (s : ApplState), (∀ i ∈ is, 0 ≤ i.u ∧ (a.switchOff = true → 0 < i.active)) → 0 ≤ s.refresh →
    (∀ j : Nat, j < is.length → (j : Rat) < s.left ∨ (j : Int) < s.refresh) →
    ((is.length : Rat) < s.left → (a.occRun s is).left = s.left - is.length) ∧ (s.left ≤ is.length → (a.occRun s is).left ≤ 0) ∧
      (a.occRun s is).refresh = max (s.refresh - is.length) 0 := by
  induction is with
  | nil =>
    intro s _ hr _
    refine ⟨fun _ => by simp [occRun], fun h => by simpa [occRun] using h, ?_⟩
    simp [occRun, hr]
  | cons i is ih =>
    intro s hi hr hb
    obtain ⟨hu, hact⟩ := hi i List.mem_cons_self
    have hb0 : 0 < s.left ∨ 0 < s.refresh := by simpa using hb 0 (by simp)
    have hav : a.available s = false := not_available (by tauto)
    have hstep : a.occStep s i = decrement s := by rw [occStep_blocked a s i hu hav, switchOffInactive_active a s _ hact]
    have hrun : a.occRun s (i :: is) = a.occRun (decrement s) is := by show a.occRun (a.occStep s i) is = _; rw [hstep]
    rw [hrun]
    have hleft : (0 < s.left → (decrement s).left = s.left - 1) ∧ (s.left ≤ 0 → (decrement s).left = s.left) := by
      unfold decrement
      exact ⟨fun h => by simp [h], fun h => by simp [not_lt.mpr h]⟩
    have hrefresh : (decrement s).refresh = max (s.refresh - 1) 0 := by
      unfold decrement
      simp only [gt_iff_lt]
      split_ifs <;> omega
    obtain ⟨h1, h2, h3⟩ := ih (decrement s) (fun x hx => hi x (List.mem_cons_of_mem _ hx)) (by rw [hrefresh]; omega) (by
      intro j hj
      rcases hb (j + 1) (by simp; omega) with h | h
      · left
        push_cast at h
        have : (0 : Rat) ≤ j := by positivity
        rw [hleft.1 (by linarith)]
        linarith
      · right
        rw [hrefresh]
        push_cast at h
        omega)
    have hk : (0 : Rat) ≤ is.length := by positivity
    rw [List.length_cons]
    push_cast
    refine ⟨fun h => ?_, fun h => ?_, ?_⟩
    · have hpos : 0 < s.left := by linarith
      have e := hleft.1 hpos
      rw [h1 (by rw [e]; linarith), e]
      ring
    · by_cases hpos : 0 < s.left
      · exact h2 (by rw [hleft.1 hpos]; linarith)
      · exact h2 (by rw [hleft.2 (not_lt.mp hpos)]; linarith)
    · rw [h3, hrefresh]
      omega

theorem occStep_on (a : Appl) (s : ApplState) (i : OccInput) (ho : a.owned = true) (hl : s.left ≤ 0) (hr : s.refresh ≤ 0) (hon : i.u < i.prob)
    (hact : a.switchOff = true → 0 < i.active) : a.occStep s i = decrement (a.occSwitchOn i.volume) := by
  have hav : a.available s = true := by unfold available; simp [ho, hl, hr]
  unfold occStep
  simp only [hav, if_true, one_mul, if_pos hon]
  rw [switchOffInactive_active a _ _ hact]

theorem occRun_append (a : Appl) (s : ApplState) (xs ys : List OccInput) : a.occRun s (xs ++ ys) = a.occRun (a.occRun s xs) ys := by
  induction xs generalizing s with
  | nil => rfl
  | cons x xs ih => exact ih _

end Appl

end Demod
