import Verif.Spec.Time
import Verif.Model.Solar

/-!
# The irradiance at a place and time, from the textbook formulas
-/

namespace Demod

open Real

/-- The place and the sun: latitude `φ`, declination `δ` and hour angle `h`, in degrees. This is the sine of the altitude of the sun. -/
noncomputable def sinAltitude (φ δ h : ℝ) : ℝ := cos (φ * π / 180) * cos (δ * π / 180) * cos (h * π / 180) + sin (φ * π / 180) * sin (δ * π / 180)

/-- Declination of the sun on the day of the year. -/
noncomputable def declination (day : ℝ) : ℝ := 2345 / 100 * sin (2 * π * (284 + day) / (36525 / 100))

/-- Hour angle: 15 degrees for each hour before solar noon; `hours` is the standard time in hours and `correction` the time correction in minutes. -/
noncomputable def hourAngle (hours correction : ℝ) : ℝ := 15 * (12 - (hours + correction / 60))

/-- The standard time in hours (whole minutes) when the clock shows `t` on the given day of the year: from the 87th day to the 303rd one a clock with summer time is an hour ahead. -/
noncomputable def standardHours (summer : Bool) (day : Nat) (t : Int) : ℝ :=
  ((t % 86400000000 / 60000000 : Int) : ℝ) / 60 - (if summer = true ∧ 87 ≤ day ∧ day < 304 then 1 else 0)

/-- Correction of the time for the longitude and the equation of time, in minutes. -/
noncomputable def correction (longitude meridian day : ℝ) : ℝ :=
  let b := 360 * (day - 81) / 364 * π / 180
  4 * (longitude - meridian) + (987 / 100 * sin (2 * b) - 753 / 100 * cos b - 3 / 2 * sin b)

/-- Extraterrestrial irradiance. -/
noncomputable def extraterrestrial (day : ℝ) : ℝ := 1367 * (1 + 34 / 1000 * cos (2 * π * day / (36525 / 100)))

/-- Optical depth of the atmosphere. -/
noncomputable def opticalDepth (day : ℝ) : ℝ := 174 / 1000 + 35 / 1000 * sin (2 * π * (day - 100) / 365)

/-- Irradiance on a horizontal surface with the sine `s` of the altitude of the sun and clearness `k`. -/
noncomputable def horizontal (day s k : ℝ) : ℝ := open Classical in if 0 < s then extraterrestrial day * exp (-opticalDepth day / s) * k * s else 0

end Demod
