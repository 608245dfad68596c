import Verif.Spec.Arma
import Mathlib.Algebra.BigOperators.Intervals
import Mathlib.Algebra.BigOperators.Ring.Finset
import Mathlib.Algebra.Order.BigOperators.Group.Finset
import Mathlib.Algebra.Order.Field.Rat
import Mathlib.Tactic.Ring
import Mathlib.Tactic.Linarith
import Mathlib.Tactic.NormNum
import Mathlib.Tactic.Positivity
import Mathlib.Tactic.FieldSimp

/-!
# C135: the mean temperature of the days
-/

namespace Demod

theorem armaRun_r (d : ArmaDic) (season z : Nat → Rat) (n : Nat) : (armaRun d season z n).r = d.SD * z n := by
  cases n <;> simp [armaRun, armaStart, armaUpdate, mul_comm]

theorem armaRun_ar_succ (d : ArmaDic) (season z : Nat → Rat) (n : Nat) :
    (armaRun d season z (n + 1)).ar = d.AR * (armaRun d season z n).ar + d.SD * z (n + 1) := by
  simp [armaRun, armaUpdate, mul_comm]

theorem armaRun_ar (d : ArmaDic) (season z : Nat → Rat) (n : Nat) :
    (armaRun d season z n).ar = ∑ k ∈ Finset.range n, d.AR ^ k * (d.SD * z (n - k)) := by
  induction n with
  | zero => simp [armaRun, armaStart]
  | succ n ih =>
    rw [armaRun_ar_succ, ih, Finset.sum_range_succ', Finset.mul_sum]
    simp only [pow_zero, one_mul, Nat.sub_zero]
    congr 1
    apply Finset.sum_congr rfl
    intro k hk
    rw [show n + 1 - (k + 1) = n - k by omega, pow_succ]
    ring

theorem anomaly_succ (d : ArmaDic) (season z : Nat → Rat) (n : Nat) :
    anomaly d season z (n + 1) = (armaRun d season z (n + 1)).ar + d.MA * (d.SD * z n) := by
  have h := armaRun_r d season z n
  simp only [anomaly, if_neg (Nat.succ_ne_zero n)]
  simp only [armaRun, armaUpdate]
  rw [h]
  ring

/-- **C135 (closed form).** For all the parameters, seasons and draws, the mean temperature of day `n` is that of the
season, plus the noise of all the days up to `n`, each weighted with a power of the coefficient of autoregression, plus
the noise of the day before, weighted with the coefficient of the moving average. -/
theorem C135_closed_form_partial (d : ArmaDic) (season z : Nat → Rat) (n : Nat) (hn : 0 < n) :
    (armaRun d season z n).tdArma =
      d.mean + d.std * season n + ∑ k ∈ Finset.range n, d.AR ^ k * (d.SD * z (n - k)) + d.MA * (d.SD * z (n - 1)) := by
  obtain ⟨m, rfl⟩ : ∃ m, n = m + 1 := ⟨n - 1, by omega⟩
  have h := anomaly_succ d season z m
  simp only [anomaly, if_neg (Nat.succ_ne_zero m)] at h
  rw [armaRun_ar] at h
  rw [Nat.add_sub_cancel]
  linarith

/-- **C135 (the autoregressive temperature).** `Td_ar` is the season with an AR(1) process. -/
theorem C135_autoregressive (d : ArmaDic) (season z : Nat → Rat) (n : Nat) (hn : 0 < n) :
    (armaRun d season z n).tdAr = d.mean + d.std * season n + ∑ k ∈ Finset.range n, d.AR ^ k * (d.SD * z (n - k)) := by
  obtain ⟨m, rfl⟩ : ∃ m, n = m + 1 := ⟨n - 1, by omega⟩
  rw [← armaRun_ar d season z]
  simp [armaRun, armaUpdate]

/-- **C135 (moving average).** -/
theorem C135_moving_average (d : ArmaDic) (season z : Nat → Rat) (n : Nat) (hn : 0 < n) :
    (armaRun d season z n).ma = d.SD * z n + d.MA * (d.SD * z (n - 1)) := by
  obtain ⟨m, rfl⟩ : ∃ m, n = m + 1 := ⟨n - 1, by omega⟩
  have h := armaRun_r d season z m
  rw [Nat.add_sub_cancel]
  simp only [armaRun, armaUpdate]
  rw [h]
  ring

/-- **C135 (recursion).** From day to day the anomaly of the temperature follows ARMA(1,1) up to one term: the noise of
two days ago, weighted with both coefficients, is missing. -/
theorem C135_recursion_partial (d : ArmaDic) (season z : Nat → Rat) (n : Nat) :
    anomaly d season z (n + 2) = d.AR * anomaly d season z (n + 1) + d.SD * z (n + 2) + d.MA * (d.SD * z (n + 1))
      - d.AR * d.MA * (d.SD * z n) := by
  rw [anomaly_succ, anomaly_succ, armaRun_ar_succ]
  ring

theorem geom_le (a : Rat) (h0 : 0 ≤ a) (h1 : a < 1) (n : Nat) : ∑ k ∈ Finset.range n, a ^ k ≤ 1 / (1 - a) := by
  have hp : 0 < 1 - a := by linarith
  rw [le_div_iff₀ hp]
  have : (∑ k ∈ Finset.range n, a ^ k) * (1 - a) = 1 - a ^ n := by
    induction n with
    | zero => simp
    | succ n ih => rw [Finset.sum_range_succ, add_mul, ih, pow_succ]; ring
  rw [this]
  have := pow_nonneg h0 n
  linarith

/-- **C135 (stability).** If the coefficient of autoregression is below 1 in absolute value, the temperatures do not
drift away: noise of at most `b` keeps the mean temperature of every day within a fixed distance of the season. -/
theorem C135_stable (d : ArmaDic) (season z : Nat → Rat) (b : Rat) (ha : |d.AR| < 1) (hb : ∀ k, |d.SD * z k| ≤ b) (n : Nat) (hn : 0 < n) :
    |(armaRun d season z n).tdArma - (d.mean + d.std * season n)| ≤ b * (1 / (1 - |d.AR|) + |d.MA|) := by
  have hb0 : 0 ≤ b := le_trans (abs_nonneg _) (hb 0)
  have hs : |∑ k ∈ Finset.range n, d.AR ^ k * (d.SD * z (n - k))| ≤ b * (1 / (1 - |d.AR|)) := by
    calc |∑ k ∈ Finset.range n, d.AR ^ k * (d.SD * z (n - k))|
        ≤ ∑ k ∈ Finset.range n, |d.AR ^ k * (d.SD * z (n - k))| := Finset.abs_sum_le_sum_abs _ _
      _ ≤ ∑ k ∈ Finset.range n, b * |d.AR| ^ k := by
          apply Finset.sum_le_sum
          intro k _
          rw [abs_mul, abs_pow, mul_comm b]
          exact mul_le_mul_of_nonneg_left (hb _) (pow_nonneg (abs_nonneg _) _)
      _ = b * ∑ k ∈ Finset.range n, |d.AR| ^ k := by rw [Finset.mul_sum]
      _ ≤ _ := mul_le_mul_of_nonneg_left (geom_le _ (abs_nonneg _) ha n) hb0
  have hm : |d.MA * (d.SD * z (n - 1))| ≤ b * |d.MA| := by
    rw [abs_mul, mul_comm]
    exact mul_le_mul_of_nonneg_right (hb _) (abs_nonneg _)
  rw [C135_closed_form_partial d season z n hn]
  have e : d.mean + d.std * season n + ∑ k ∈ Finset.range n, d.AR ^ k * (d.SD * z (n - k)) + d.MA * (d.SD * z (n - 1))
      - (d.mean + d.std * season n) = ∑ k ∈ Finset.range n, d.AR ^ k * (d.SD * z (n - k)) + d.MA * (d.SD * z (n - 1)) := by ring
  rw [e, mul_add]
  exact le_trans (abs_add_le _ _) (add_le_add hs hm)

/-- The full claim: the anomalies are the documented ARMA process. -/
def C135_full : Prop := ∀ (d : ArmaDic) (season z : Nat → Rat), IsArma d.AR d.MA (fun k => d.SD * z k) (anomaly d season z)

/-- **C135 (when it is ARMA).** With non-zero noise it is ARMA(1,1) only if one of the two coefficients is zero. -/
theorem C135_arma_iff (d : ArmaDic) (season z : Nat → Rat) (hz : ∀ k, d.SD * z k ≠ 0) :
    IsArma d.AR d.MA (fun k => d.SD * z k) (anomaly d season z) ↔ d.AR = 0 ∨ d.MA = 0 := by
  constructor
  · intro h
    have h2 := h.2 1
    rw [C135_recursion_partial d season z 0] at h2
    have : d.AR * d.MA * (d.SD * z 0) = 0 := by
      simp only [Nat.zero_add] at h2
      linarith
    rcases mul_eq_zero.1 this with h3 | h3
    · exact mul_eq_zero.1 h3
    · exact absurd h3 (hz 0)
  · intro h
    refine ⟨by simp [anomaly], fun n => ?_⟩
    have hp : d.AR * d.MA = 0 := mul_eq_zero.2 h
    cases n with
    | zero =>
      rw [anomaly_succ, armaRun_ar]
      simp [anomaly]
    | succ n => rw [C135_recursion_partial, hp]; ring

/-- **C135 (counterexample).** With the values of CREST and any non-zero noise, whatever the seasons, the temperatures
are not the documented ARMA process. -/
theorem C135_counterexample (season z : Nat → Rat) (hz : ∀ k, z k ≠ 0) :
    ¬ IsArma crestArma.AR crestArma.MA (fun k => crestArma.SD * z k) (anomaly crestArma season z) := by
  intro h
  have hn : ∀ k, crestArma.SD * z k ≠ 0 := fun k => mul_ne_zero (by norm_num [crestArma]) (hz k)
  rcases (C135_arma_iff crestArma season z hn).1 h with h | h <;> norm_num [crestArma] at h

theorem C135_full_false : ¬ C135_full := fun h =>
  C135_counterexample (fun _ => 0) (fun _ => 1) (fun _ => by norm_num) (h crestArma (fun _ => 0) (fun _ => 1))

/-- Non-vacuity for C135: the values of CREST are stable, with noise of at most 1 degree. -/
example : |crestArma.AR| < 1 ∧ ∀ k : Nat, |crestArma.SD * (if k % 2 = 0 then 1 else -2 : Rat)| ≤ 1 := by
  constructor
  · norm_num [crestArma, abs_of_pos]
  · intro k
    split <;> norm_num [crestArma, abs_le]

/-- Three days with the values of CREST: 0.5 and 0.31; 0.5 + 0.405 and 0.31; 0.5 + 0.405 + 0.32805 and 0.31. -/
example : (armaRun crestArma (fun _ => 0) (fun _ => 1) 1).tdArma = 93 / 10 + 81 / 100 ∧
    (armaRun crestArma (fun _ => 1) (fun _ => 1) 2).tdArma = 158 / 10 + 1215 / 1000 ∧
    (armaRun crestArma (fun _ => 0) (fun _ => 1) 3).tdArma = 93 / 10 + 154305 / 100000 := by
  decide +kernel

end Demod
