import Verif.Spec.Solar
import Verif.Lemmas.Climate

namespace Demod

open Real

theorem sinAltitude_le (φ δ h : ℝ) : -1 ≤ sinAltitude φ δ h ∧ sinAltitude φ δ h ≤ 1 := by
  unfold sinAltitude
  have h1 := sin_sq_add_cos_sq (φ * π / 180)
  have h2 := sin_sq_add_cos_sq (δ * π / 180)
  have h3 := cos_sq_le_one (h * π / 180)
  generalize cos (φ * π / 180) = a at *
  generalize sin (φ * π / 180) = b at *
  generalize cos (δ * π / 180) = c at *
  generalize sin (δ * π / 180) = d at *
  generalize cos (h * π / 180) = e at *
  have key : (a * c * e + b * d) ^ 2 ≤ 1 := by
    have e1 : (a * (c * e) + b * d) ^ 2 ≤ (a ^ 2 + b ^ 2) * ((c * e) ^ 2 + d ^ 2) := by nlinarith [sq_nonneg (a * d - b * (c * e))]
    have e2 : (c * e) ^ 2 + d ^ 2 ≤ 1 := by nlinarith [sq_nonneg c]
    have e3 : a ^ 2 + b ^ 2 = 1 := by linarith
    rw [e3, one_mul, ← mul_assoc] at e1
    exact e1.trans e2
  exact abs_le.1 ((sq_le_one_iff_abs_le_one _).1 key)

theorem timeCorrection_eq (g : Geography) (t : Int) : timeCorrection g t = correction g.longitude g.meridian (dayOfYear t) := by
  unfold timeCorrection correction
  simp only
  rw [show 2 * (360 * ((dayOfYear t : ℝ) - 81) / 364) * π / 180 = 2 * (360 * ((dayOfYear t : ℝ) - 81) / 364 * π / 180) by ring]

theorem standardHours_eq (summer : Bool) (t : Int) :
    standardHours summer (dayOfYear t) t = (hourOf t : ℝ) + (minuteOf t : ℝ) / 60 - (if summer && isSummerTime t then 1 else 0) := by
  have h : t % 86400000000 / 60000000 = hourOf t * 60 + minuteOf t := by
    unfold hourOf minuteOf timeOfDay HOUR DAY MINUTE; omega
  unfold standardHours
  rw [h]
  push_cast
  rw [add_div, mul_div_cancel_right₀ _ (by norm_num)]
  refine congrArg _ ?_
  unfold isSummerTime
  refine if_congr ?_ rfl rfl
  cases summer <;> simp

theorem solar_eq (g : Geography) (tcf : ℝ) (t : Int) (k : ℝ) :
    solarIrradiance g tcf t k = .ok (horizontal (dayOfYear t) (sinAltitude g.latitude (declination (dayOfYear t)) (hourAngle (standardHours g.summerTime (dayOfYear t) t) tcf)) k) := by
  obtain ⟨x, hx⟩ : ∃ x, x = sinAltitude g.latitude (declination (dayOfYear t)) (hourAngle (standardHours g.summerTime (dayOfYear t) t) tcf) := ⟨_, rfl⟩
  have hb := sinAltitude_le g.latitude (declination (dayOfYear t)) (hourAngle (standardHours g.summerTime (dayOfYear t) t) tcf)
  rw [← hx] at hb ⊢
  have hang : 15 * (12 - (((if g.summerTime && isSummerTime t then hourOf t - 1 else hourOf t : Int) : ℝ) + (minuteOf t : ℝ) / 60 + tcf / 60)) = hourAngle (standardHours g.summerTime (dayOfYear t) t) tcf := by
    unfold hourAngle
    rw [standardHours_eq]
    split
    · push_cast; ring
    · ring
  have hx' : cos (g.latitude * π / 180) * cos (2345 / 100 * sin (2 * π * (284 + (dayOfYear t : ℝ)) / (36525 / 100)) * π / 180) * cos (hourAngle (standardHours g.summerTime (dayOfYear t) t) tcf * π / 180) +
      sin (g.latitude * π / 180) * sin (2345 / 100 * sin (2 * π * (284 + (dayOfYear t : ℝ)) / (36525 / 100)) * π / 180) = x := by rw [hx]; rfl
  have hasin : pyAsin x = .ok (arcsin x) := by unfold pyAsin; rw [if_pos hb]
  have hsin : sin (180 / π * arcsin x * π / 180) = x := by
    rw [show 180 / π * arcsin x * π / 180 = arcsin x by field_simp]
    exact sin_arcsin hb.1 hb.2
  have hpos : 180 / π * arcsin x > 0 ↔ 0 < x := by
    rw [← arcsin_pos]
    have : 0 < 180 / π := by positivity
    constructor
    · intro h; exact (mul_pos_iff_of_pos_left this).1 h
    · intro h; exact mul_pos this h
  unfold solarIrradiance
  simp only [hang, hx', hasin]
  change Except.ok _ = _
  refine congrArg Except.ok ?_
  rw [hsin]
  unfold horizontal
  by_cases h : 0 < x
  · rw [if_pos h, if_pos (hpos.2 h), zero_sub]; rfl
  · rw [if_neg h, if_neg (fun h' => h (hpos.1 h')), zero_mul, zero_mul]

end Demod
