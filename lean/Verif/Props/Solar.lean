import Verif.Lemmas.Solar
import Verif.Lemmas.Sampling
import Verif.Lemmas.Calendar

/-!
# Properties of the irradiance simulator: C81
-/

namespace Demod

open Real

/-- **C81 (day of the year).** On a date, the day of the year is the number of the days before its month plus the day of the month. -/
theorem C81_day_of_year (y m d : Nat) (hy : 1 ≤ y) (hm : 1 ≤ m ∧ m ≤ 12) (hd : 1 ≤ d ∧ d ≤ monthLength y m)
    (t : Int) (h1 : (daysBefore y m d : Int) * DAY ≤ t) (h2 : t < ((daysBefore y m d : Int) + 1) * DAY) :
    dayOfYear t = daysBeforeMonth y m + d := by
  unfold dayOfYear
  rw [C06_calendar y m d hy hm hd t h1 h2]
  simp only
  have hl : ∀ k, k + 1 ≤ 12 → daysInMonth y (k + 1) = monthLength y (k + 1) := fun k hk => daysInMonth_eq y (k + 1) (by omega) hk
  have hmap : ((List.range (m - 1)).map fun k => daysInMonth y (k + 1)) = (List.range (m - 1)).map fun k => monthLength y (k + 1) :=
    List.map_congr_left fun k hk => hl k (by rw [List.mem_range] at hk; omega)
  rw [hmap]
  congr 1
  have hm' : m = 1 ∨ m = 2 ∨ m = 3 ∨ m = 4 ∨ m = 5 ∨ m = 6 ∨ m = 7 ∨ m = 8 ∨ m = 9 ∨ m = 10 ∨ m = 11 ∨ m = 12 := by omega
  by_cases hleap : Leap y
  · rcases hm' with h | h | h | h | h | h | h | h | h | h | h | h <;> subst h <;> simp [List.range_succ, monthLength, daysBeforeMonth, hleap]
  · rcases hm' with h | h | h | h | h | h | h | h | h | h | h | h <;> subst h <;> simp [List.range_succ, monthLength, daysBeforeMonth, hleap]

/-- **C81 (bounds).** The irradiance on a horizontal surface is never negative and at most the clearness times the extraterrestrial irradiance, which is at most 1367 W/m² plus 3.4 %. -/
theorem C81_bounds (day s k : ℝ) (hs : s ≤ 1) (hk : 0 ≤ k) :
    0 ≤ horizontal day s k ∧ horizontal day s k ≤ extraterrestrial day * k ∧ extraterrestrial day ≤ 1367 * (1034 / 1000) := by
  have hc := cos_le_one (2 * π * day / (36525 / 100))
  have hc' := neg_one_le_cos (2 * π * day / (36525 / 100))
  have hE : 0 < extraterrestrial day := by unfold extraterrestrial; nlinarith
  have hτ : 0 < opticalDepth day := by
    have := neg_one_le_sin (2 * π * (day - 100) / 365)
    unfold opticalDepth; linarith
  refine ⟨?_, ?_, by unfold extraterrestrial; nlinarith⟩
  · unfold horizontal
    split
    · rename_i h; positivity
    · exact le_refl _
  · unfold horizontal
    split
    · rename_i h
      have he : exp (-opticalDepth day / s) ≤ 1 := exp_le_one_iff.2 (div_nonpos_of_nonpos_of_nonneg (by linarith) h.le)
      have he0 := exp_pos (-opticalDepth day / s)
      have : extraterrestrial day * exp (-opticalDepth day / s) * k * s = extraterrestrial day * k * (exp (-opticalDepth day / s) * s) := by ring
      rw [this]
      have h1 : exp (-opticalDepth day / s) * s ≤ 1 := by nlinarith
      have h2 : 0 ≤ extraterrestrial day * k := by positivity
      nlinarith
    · positivity

/-- **C81 (night).** With some clearness the irradiance is zero exactly when the sun is not above the horizon. -/
theorem C81_night (day s k : ℝ) (hk : 0 < k) : horizontal day s k = 0 ↔ s ≤ 0 := by
  have hc' := neg_one_le_cos (2 * π * day / (36525 / 100))
  have hE : 0 < extraterrestrial day := by unfold extraterrestrial; nlinarith
  unfold horizontal
  split
  · rename_i h
    have : 0 < extraterrestrial day * exp (-opticalDepth day / s) * k * s := by positivity
    constructor
    · intro h0; linarith
    · intro h0; linarith
  · rename_i h; simp; linarith

/-- **C81 (symmetry).** The altitude of the sun is the same equally long before and after solar noon, and is largest at solar noon, for latitudes up to 90 degrees and declinations of up to 23.45 degrees. -/
theorem C81_noon (φ day h : ℝ) (hφ : -90 ≤ φ ∧ φ ≤ 90) :
    sinAltitude φ (declination day) (-h) = sinAltitude φ (declination day) h ∧ sinAltitude φ (declination day) h ≤ sinAltitude φ (declination day) 0 := by
  have hδ1 := sin_le_one (2 * π * (284 + day) / (36525 / 100))
  have hδ2 := neg_one_le_sin (2 * π * (284 + day) / (36525 / 100))
  have hπ := pi_pos
  have hd1 : declination day ≤ 90 := by unfold declination; linarith
  have hd2 : -90 ≤ declination day := by unfold declination; linarith
  have c1 : 0 ≤ cos (φ * π / 180) := cos_nonneg_of_mem_Icc ⟨by nlinarith, by nlinarith⟩
  have c2 : 0 ≤ cos (declination day * π / 180) := cos_nonneg_of_mem_Icc ⟨by nlinarith, by nlinarith⟩
  unfold sinAltitude
  constructor
  · rw [show -h * π / 180 = -(h * π / 180) by ring, cos_neg]
  · rw [zero_mul, zero_div, cos_zero]
    have := cos_le_one (h * π / 180)
    have hp := mul_nonneg c1 c2
    nlinarith

/-- The data is consistent: there are as many rows of probabilities, and entries in each of them, as values of the clearness. -/
def SolarData.Consistent (D : SolarData) : Prop := D.cdf.length = D.values.length ∧ ∀ row ∈ D.cdf, row.length = D.values.length

/-- One step of the simulator: it never fails, and the irradiance is that of the time before the step. -/
theorem solar_step (D : SolarData) (hD : D.Consistent) (s : Solar) (hc : s.clearness < D.values.length) (ht : 0 ≤ s.clock) (htcf : s.tcf = timeCorrection D.geo s.clock) (u : Rat) :
    ∃ s', D.step s u = .ok s' ∧ s'.clock = s.clock + MINUTE ∧ s'.tcf = timeCorrection D.geo s'.clock ∧ (∃ k, D.values[s'.clearness]? = some k ∧
      s'.irradiance = horizontal (dayOfYear s.clock) (sinAltitude D.geo.latitude (declination (dayOfYear s.clock))
        (hourAngle (standardHours D.geo.summerTime (dayOfYear s.clock) s.clock) (correction D.geo.longitude D.geo.meridian (dayOfYear s.clock)))) k) ∧
      mcCdf (D.cdf.getD s.clearness []) u = .ok s'.clearness ∧ s'.clearness < D.values.length := by
  have hcl : s.clearness < D.cdf.length := by rw [hD.1]; exact hc
  obtain ⟨row, hrow⟩ : ∃ row, D.cdf[s.clearness]? = some row := ⟨_, List.getElem?_eq_getElem hcl⟩
  have hrl := hD.2 row (List.mem_of_getElem? hrow)
  have hrne : row ≠ [] := by
    intro h; rw [h] at hrl; simp at hrl; omega
  obtain ⟨i, hi, hil⟩ : ∃ i, mcCdf row u = .ok i ∧ i < row.length := by
    by_cases hex : ∃ c ∈ row, u < c
    · cases hm : mcCdf row u with
      | ok i => exact ⟨i, rfl, ((mcCdf_iff row u hex i).1 hm).1⟩
      | error e =>
        exfalso
        unfold mcCdf argmaxBool at hm
        cases row with
        | nil => exact hrne rfl
        | cons a l => cases hm
    · refine ⟨0, mcCdf_none row u hrne (fun c hc => not_lt.1 fun h => hex ⟨c, hc, h⟩), List.length_pos_iff.2 hrne⟩
  have hil' : i < D.values.length := by omega
  have hv : D.values[i]? = some D.values[i] := List.getElem?_eq_getElem hil'
  have hp1 : pyGet D.cdf s.clearness = .ok row := by unfold pyGet; rw [hrow]
  have hp2 : pyGet D.values i = .ok D.values[i] := by unfold pyGet; rw [hv]
  refine ⟨⟨s.clock + MINUTE, i, if firesAfterNextDay s.clock MINUTE then timeCorrection D.geo (s.clock + MINUTE) else s.tcf, _⟩, ?_, rfl, ?_, ⟨D.values[i], hv, rfl⟩, ?_, hil'⟩
  · unfold SolarData.step
    simp only [hp1]
    change (do let state ← mcCdf row u; _) = _
    simp only [hi]
    change (do let k ← pyGet D.values i; _) = _
    simp only [hp2]
    change (do let irr ← solarIrradiance D.geo s.tcf s.clock D.values[i]; _) = _
    rw [solar_eq, htcf, timeCorrection_eq]
    rfl
  · simp only
    by_cases hf : firesAfterNextDay s.clock MINUTE = true
    · rw [if_pos hf]
    · rw [if_neg hf, htcf]
      rw [C06_after_next_day s.clock MINUTE ht (by decide) (by decide), crosses_iff] at hf
      have : dayNumber (s.clock + MINUTE) = dayNumber s.clock := by
        rcases dayNumber_add s.clock MINUTE (by decide) (by decide) with h | h
        · exact h
        · omega
      unfold timeCorrection dayOfYear
      rw [dateAt_same this]
  · have : D.cdf.getD s.clearness [] = row := by rw [List.getD_eq_getElem?_getD, hrow]; rfl
    rw [this]; exact hi

theorem solar_run (D : SolarData) (hD : D.Consistent) : ∀ (us : List Rat) (s : Solar), s.clearness < D.values.length → 0 ≤ s.clock → s.tcf = timeCorrection D.geo s.clock →
    ∃ s', D.run us s = .ok s' ∧ s'.clock = s.clock + us.length * MINUTE ∧ s'.tcf = timeCorrection D.geo s'.clock ∧ s'.clearness < D.values.length ∧ (us ≠ [] → ∃ k, D.values[s'.clearness]? = some k ∧
      s'.irradiance = horizontal (dayOfYear (s'.clock - MINUTE)) (sinAltitude D.geo.latitude (declination (dayOfYear (s'.clock - MINUTE)))
        (hourAngle (standardHours D.geo.summerTime (dayOfYear (s'.clock - MINUTE)) (s'.clock - MINUTE)) (correction D.geo.longitude D.geo.meridian (dayOfYear (s'.clock - MINUTE))))) k) := by
  intro us
  induction us with
  | nil => intro s hc ht htcf; exact ⟨s, rfl, by simp, htcf, hc, fun h => absurd rfl h⟩
  | cons u us ih =>
    intro s hc ht htcf
    obtain ⟨s1, h1, hc1, ht1, hk1, -, hv1⟩ := solar_step D hD s hc ht htcf u
    obtain ⟨s2, h2, hc2, ht2, hv2, hk2⟩ := ih s1 hv1 (by rw [hc1]; unfold MINUTE; omega) ht1
    refine ⟨s2, ?_, ?_, ht2, hv2, fun _ => ?_⟩
    · simp only [SolarData.run, h1]; exact h2
    · rw [hc2, hc1, List.length_cons]; push_cast; ring
    · by_cases hus : us = []
      · subst hus
        have e : s2 = s1 := by simpa [SolarData.run] using h2.symm
        rw [e, hc1, add_sub_cancel_right]
        exact hk1
      · exact hk2 hus

/-- **C81 (value).** The simulator can be created at any start and stepped without errors, whatever the draws. Its irradiance is zero at the start; after each step it is the irradiance on a horizontal surface, at its place and for its current clearness, at the time at
which the step began, a minute before its clock. -/
theorem C81_value (D : SolarData) (hD : D.cdf.length = D.values.length ∧ ∀ row ∈ D.cdf, row.length = D.values.length) (start : Int) (hs : 0 ≤ start) (c0 : Nat) (hc : c0 < D.values.length)
    (us0 us : List Rat) (hus0 : (us0.length : Int) = start % DAY / MINUTE) :
    ∃ s s', D.create start c0 us0 = .ok s ∧ s.clock = start ∧ s.irradiance = 0 ∧ D.run us s = .ok s' ∧ s'.clock = start + us.length * MINUTE ∧
      (us ≠ [] → ∃ k, D.values[s'.clearness]? = some k ∧ s'.irradiance = horizontal (dayOfYear (s'.clock - MINUTE))
        (sinAltitude D.geo.latitude (declination (dayOfYear (s'.clock - MINUTE)))
          (hourAngle (standardHours D.geo.summerTime (dayOfYear (s'.clock - MINUTE)) (s'.clock - MINUTE)) (correction D.geo.longitude D.geo.meridian (dayOfYear (s'.clock - MINUTE))))) k) := by
  have hinit : initDatetime start (.time 0) = .ok (dayNumber start * DAY) := by
    unfold initDatetime
    simp only [Int.add_zero]
    rw [if_neg (by unfold dayNumber DAY; omega)]
  have hdelta : start - dayNumber start * DAY = start % DAY := by unfold dayNumber DAY; omega
  have hn : ((start - dayNumber start * DAY).tdiv MINUTE).toNat = us0.length := by
    rw [hdelta, Int.tdiv_eq_ediv_of_nonneg (by unfold DAY; omega), ← hus0]; simp
  have hr : dayNumber start * DAY + (start - dayNumber start * DAY).fmod MINUTE = dayNumber start * DAY + start % MINUTE := by
    rw [hdelta, Int.fmod_eq_emod_of_nonneg _ (by decide)]
    unfold dayNumber DAY MINUTE; omega
  have hday : dayNumber (dayNumber start * DAY + start % MINUTE) = dayNumber start := by unfold dayNumber DAY MINUTE; omega
  have htc : timeCorrection D.geo start = timeCorrection D.geo (dayNumber start * DAY + start % MINUTE) := by
    unfold timeCorrection dayOfYear dateAt
    rw [hday]
  obtain ⟨s1, h1, hc1, ht1, hv1, -⟩ := solar_run D hD us0 ⟨dayNumber start * DAY + start % MINUTE, c0, timeCorrection D.geo start, 0⟩ hc (by simp only; unfold dayNumber DAY MINUTE; omega) htc
  have hclock : s1.clock = start := by
    rw [hc1, hus0]; simp only
    unfold dayNumber DAY MINUTE; omega
  obtain ⟨s2, h2, hc2, -, -, hk2⟩ := solar_run D hD us { s1 with irradiance := 0 } hv1 (by simp only; omega) ht1
  refine ⟨{ s1 with irradiance := 0 }, s2, ?_, hclock, rfl, h2, by rw [hc2]; simp only; rw [hclock], hk2⟩
  unfold SolarData.create
  simp only [hinit]
  change (do let s ← D.run (us0.take ((start - dayNumber start * DAY).tdiv MINUTE).toNat) ⟨dayNumber start * DAY + (start - dayNumber start * DAY).fmod MINUTE, c0, timeCorrection D.geo start, 0⟩; _) = _
  rw [hn, hr, List.take_length, h1]
  rfl

/-- **C81 (clearness).** The next state of the clearness is drawn with the probabilities of the current one: it is the first state whose cumulative probability exceeds the draw. -/
theorem C81_clearness (D : SolarData) (hD : D.cdf.length = D.values.length ∧ ∀ row ∈ D.cdf, row.length = D.values.length) (s : Solar) (hc : s.clearness < D.values.length) (ht : 0 ≤ s.clock)
    (htcf : s.tcf = timeCorrection D.geo s.clock) (u : Rat) (row : List Rat) (hrow : D.cdf[s.clearness]? = some row) (hu : ∃ c ∈ row, u < c) :
    ∃ s' c, D.step s u = .ok s' ∧ row[s'.clearness]? = some c ∧ u < c ∧ ∀ j : Nat, j < s'.clearness → ∀ c', row[j]? = some c' → c' ≤ u := by
  obtain ⟨s1, h1, -, -, -, hm, -⟩ := solar_step D hD s hc ht htcf u
  have : D.cdf.getD s.clearness [] = row := by rw [List.getD_eq_getElem?_getD, hrow]; rfl
  rw [this] at hm
  obtain ⟨hl, h2, h3⟩ := (mcCdf_iff row u hu _).1 hm
  refine ⟨s1, _, h1, List.getElem?_eq_getElem hl, h2, fun j hj c' hc' => ?_⟩
  have := h3 j hj
  rw [List.getElem?_eq_getElem (by omega)] at hc'
  cases hc'
  exact this

/-- The hypotheses can be met: two states of the clearness, a start at 4:00. -/
example : ∃ D : SolarData, (D.cdf.length = D.values.length ∧ ∀ row ∈ D.cdf, row.length = D.values.length) ∧ 1 < D.values.length ∧ (((List.replicate 240 (0 : Rat)).length : Nat) : Int) = 4 * HOUR % DAY / MINUTE := by
  refine ⟨⟨⟨0, 52, 0, true⟩, [[1 / 2, 1], [1 / 4, 1]], [0, 1]⟩, ⟨rfl, by simp⟩, by simp, ?_⟩
  rw [List.length_replicate]; decide

end Demod
