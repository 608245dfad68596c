import Verif.Spec.Heating
import Mathlib.Tactic.FieldSimp
import Mathlib.Tactic.Ring
import Mathlib.Tactic.Linarith

/-! # Lemmas about the heating model -/

namespace Demod

theorem npClip_nonneg (x hi : Rat) (h : 0 ≤ hi) : 0 ≤ npClip x 0 hi := by
  unfold npClip; exact le_min (le_max_right _ _) h

theorem npClip_le (x lo hi : Rat) : npClip x lo hi ≤ hi := min_le_right _ _

theorem npClip_le_max (x lo hi : Rat) : npClip x lo hi ≤ max x lo := min_le_left _ _

/-- One node of the building stays below a bound. -/
theorem node_le (C dt x M S Q φ : Rat) (hC : 0 < C) (hdt : 0 ≤ dt) (hQ : Q ≤ S * M) (hφ : φ ≤ 0) (hx : x ≤ M) (hS : dt * S ≤ C) :
    x + dt / C * (Q - S * x + φ) ≤ M := by
  have h1 : Q - S * x + φ ≤ S * (M - x) := by linarith [mul_sub S M x]
  have h2 : dt / C * (Q - S * x + φ) ≤ dt / C * (S * (M - x)) := mul_le_mul_of_nonneg_left h1 (div_nonneg hdt hC.le)
  have h3 : dt / C * (S * (M - x)) = dt * S / C * (M - x) := by field_simp
  have h4 : dt * S / C ≤ 1 := (div_le_one₀ hC).2 hS
  have h5 : dt * S / C * (M - x) ≤ 1 * (M - x) := mul_le_mul_of_nonneg_right h4 (by linarith)
  linarith

/-- One node of the building stays above a bound. -/
theorem node_ge (C dt x M S Q φ : Rat) (hC : 0 < C) (hdt : 0 ≤ dt) (hQ : S * M ≤ Q) (hφ : 0 ≤ φ) (hx : M ≤ x) (hS : dt * S ≤ C) :
    M ≤ x + dt / C * (Q - S * x + φ) := by
  have := node_le C dt (-x) (-M) S (-Q) (-φ) hC hdt (by linarith) (by linarith) (by linarith) hS
  have e : -x + dt / C * (-Q - S * -x + -φ) = -(x + dt / C * (Q - S * x + φ)) := by ring
  linarith

/-- A node with a heat source that is at most what is needed for the set point. -/
theorem node_heated_le (C dt x M S Q φ d set : Rat) (hC : 0 < C) (hdt : 0 < dt) (hQ : Q ≤ S * M) (hx : x ≤ M) (hS : dt * S ≤ C)
    (hd : d = C / dt * (set - x) - (Q - S * x)) (hset : set ≤ M) (hφ : φ ≤ max d 0) :
    x + dt / C * (Q - S * x + φ) ≤ M := by
  by_cases h : d ≤ 0
  · rw [max_eq_right h] at hφ
    exact node_le C dt x M S Q φ hC hdt.le hQ hφ hx hS
  · rw [max_eq_left (not_le.1 h).le] at hφ
    have h1 : dt / C * (Q - S * x + φ) ≤ dt / C * (Q - S * x + d) := mul_le_mul_of_nonneg_left (by linarith) (div_nonneg hdt.le hC.le)
    have h2 : dt / C * (Q - S * x + d) = set - x := by
      rw [hd]
      have hC' := hC.ne'
      have hdt' := hdt.ne'
      field_simp
      ring
    linarith

theorem external_imp (c : Controls) (d : Demand) (i : FiveInput) (hx : i.externalDhw ∨ i.externalSpace) : ∃ v, (assignExternal c d i.extHeat i.extDhw i.extSh).dhw = some (some v) ∨
      (assignExternal c d i.extHeat i.extDhw i.extSh).spaceHeating = some (some v) := by
  obtain ⟨_, _, _, _, _, _, _, _, _, h, w, s, _⟩ := i
  rw [exists_or]
  refine hx.imp ?_ ?_
  · rcases h with _ | (_ | v) | ⟨x, y⟩ <;> rcases w with _ | _ | w <;> simp [FiveInput.externalDhw, assignExternal]
  · rcases h with _ | (_ | v) | ⟨x, y⟩ <;> rcases s with _ | _ | s <;> simp [FiveInput.externalSpace, assignExternal]

theorem external_iff (c : Controls) (d : Demand) (i : FiveInput) (hn : i.extHeat = .array none → i.extSh.isSome) :
    (i.externalDhw ∨ i.externalSpace) ↔ ∃ v, (assignExternal c d i.extHeat i.extDhw i.extSh).dhw = some (some v) ∨
      (assignExternal c d i.extHeat i.extDhw i.extSh).spaceHeating = some (some v) := by
  obtain ⟨_, _, _, _, _, _, _, _, _, h, w, s, _⟩ := i
  rw [exists_or]
  refine or_congr ?_ ?_
  · rcases h with _ | (_ | v) | ⟨x, y⟩ <;> rcases w with _ | _ | w <;> simp [FiveInput.externalDhw, assignExternal]
  · rcases h with _ | (_ | v) | ⟨x, y⟩ <;> rcases s with _ | _ | s <;> simp [FiveInput.externalSpace, assignExternal] at hn ⊢

end Demod
