import Verif.Model.Time
import Mathlib.Algebra.Order.Ring.Nat

/-! # The proleptic Gregorian calendar, by its closed formula -/

namespace Demod

/-- Leap years. -/
def Leap (y : Nat) : Prop := 4 ∣ y ∧ (¬ 100 ∣ y ∨ 400 ∣ y)

instance (y : Nat) : Decidable (Leap y) := inferInstanceAs (Decidable (_ ∧ _))

/-- The lengths of the months. -/
def monthLength (y m : Nat) : Nat :=
  if m = 2 ∧ Leap y then 29 else [31, 28, 31, 30, 31, 30, 31, 31, 30, 31, 30, 31].getD (m - 1) 0

/-- The days before the month in its year. -/
def daysBeforeMonth (y m : Nat) : Nat :=
  [0, 31, 59, 90, 120, 151, 181, 212, 243, 273, 304, 334].getD (m - 1) 0 + (if 2 < m ∧ Leap y then 1 else 0)

/-- The days from 0001-01-01 to the first of January of year `y`. -/
def daysBeforeYear (y : Nat) : Nat := (y - 1) * 365 + (y - 1) / 4 - (y - 1) / 100 + (y - 1) / 400

/-- The days from 0001-01-01 to a date. -/
def daysBefore (y m d : Nat) : Nat := daysBeforeYear y + daysBeforeMonth y m + (d - 1)

end Demod
