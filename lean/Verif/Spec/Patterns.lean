import Verif.Model.Patterns
import Mathlib.Data.Rat.Floor

/-!
# What the attribution of heating patterns has to give
-/

namespace Demod

/-- The published shares as consecutive parts of the interval from 0 to 1: 6 % cool conservers, 24 % steady and savvy,
17 % fluctuators, 12 % sizzlers, 28 % on-off switchers, 13 % toasty cruisers. -/
def shareOf : HeatPattern → Rat × Rat
  | .coolConservers => (0, 6 / 100)
  | .steadyAndSavvy => (6 / 100, 30 / 100)
  | .fluctuators => (30 / 100, 47 / 100)
  | .sizzlers => (47 / 100, 59 / 100)
  | .onOffSwitchers => (59 / 100, 87 / 100)
  | .toastyCruisers => (87 / 100, 1)

/-- The name of a pattern in the documentation. -/
def nameOf : HeatPattern → String
  | .coolConservers => "Cool Conservers"
  | .steadyAndSavvy => "Steady and Savvy"
  | .fluctuators => "Hot and Cold Fluctuators"
  | .sizzlers => "On-Demand Sizzlers"
  | .onOffSwitchers => "On-off Switchers"
  | .toastyCruisers => "Toasty Cruisers"

/-- A draw of numpy: at least 0, below 1. -/
def InUnit (u : Rat) : Prop := 0 ≤ u ∧ u < 1

/-- All the draws of a household. -/
def UnitDraws.Valid (d : UnitDraws) : Prop :=
  InUnit d.wakeHour ∧ InUnit d.wakeMinute ∧ InUnit d.change ∧ InUnit d.leaving ∧ InUnit d.returning ∧ InUnit d.bedHour ∧
    InUnit d.bedMinute

/-- Half of the people choose a full hour, the others one of the other multiples of ten minutes, equally often. -/
def TenMinutes (u : Rat) (m : Nat) : Prop :=
  (u < 1 / 2 ∧ m = 0) ∨ (1 / 2 ≤ u ∧ (m : Int) = 1 + ⌊10 * (u - 1 / 2)⌋)

/-- The times of a household: equally often waking up in each of 4 hours, leaving after each of 20 delays, coming back
after each of 20 delays, going to bed in each of 5 hours; half of them change the heating during the day. -/
structure DrawnTimes (u : UnitDraws) (d : FixedDraws) : Prop where
  wakeHour : ((d.wakeHour : Nat) : Int) = ⌊4 * u.wakeHour⌋
  wakeMinute : TenMinutes u.wakeMinute d.wakeMinute
  change : ((d.change : Nat) : Int) = ⌊2 * u.change⌋
  leaving : ((d.leaving : Nat) : Int) = ⌊20 * u.leaving⌋
  returning : ((d.returning : Nat) : Int) = ⌊20 * u.returning⌋
  bedHour : ((d.bedHour : Nat) : Int) = ⌊5 * u.bedHour⌋
  bedMinute : TenMinutes u.bedMinute d.bedMinute

/-- What household `i` gets of the inputs of a step. -/
def PatternMove.at {n : Nat} (m : PatternMove n) (i : Fin n) : VarInput :=
  { occupancy := m.occupancy i, active := m.active i, change := m.change i, increase := m.increase i }

end Demod
