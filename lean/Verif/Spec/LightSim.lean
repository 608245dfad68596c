import Verif.Model.LightSim

/-! # What is meant by the use of a bulb -/

namespace Demod

/-- A lamp is off, or on for `k` steps already (0 in the step that switches it on) out of `m`. -/
abbrev Lamp := Option (Nat × Nat)

/-- A lamp that is off, or was on for the last time, can be switched on. -/
def Lamp.free (l : Lamp) : Prop := ∀ k m, l = some (k, m) → m ≤ k + 1

/-- What a step does to a lamp, `active` being the number of active occupants, `starts` whether the lamp is switched on if it can be, for `lasting` steps. -/
structure LampStep (active : Nat) (starts : Prop) (lasting : Nat) (before after : Lamp) : Prop where
  dark : active = 0 → after = none
  goesOn : active ≠ 0 → ∀ k m, before = some (k, m) → k + 1 < m → after = some (k + 1, m)
  begins : active ≠ 0 → before.free → starts → after = if lasting = 0 then none else some (0, lasting)
  rests : active ≠ 0 → before.free → ¬ starts → after = none

/-- The duration for the draws `u` and `r`: `u` selects the interval (`cdf[i-1] ≤ u < cdf[i]`) and `r` the place in it. -/
def DrawnDuration (L : LightData) (u r d : Rat) : Prop :=
  ∃ (i : Nat) (c a b : Rat), L.cdf[i]? = some c ∧ L.low[i]? = some a ∧ L.high[i]? = some b ∧ u < c ∧ (∀ c', 0 < i → L.cdf[i - 1]? = some c' → c' ≤ u) ∧ d = a + r * (b - a)

/-- The data give a distribution of durations, and an effective occupancy. -/
structure LightDataOk (L : LightData) : Prop where
  sorted : L.cdf.Pairwise (· ≤ ·)
  complete : L.cdf.getLast? = some 1
  lows : L.low.length = L.cdf.length
  highs : L.high.length = L.cdf.length
  nonneg : ∀ x ∈ L.low, 0 ≤ x
  ordered : ∀ (i : Nat) a b, L.low[i]? = some a → L.high[i]? = some b → a ≤ b

/-- The input of a step: a number of active occupants per household that the data know, and draws in `[0, 1)`. -/
structure LightInputOk (n : Nat) (L : LightData) (i : List Nat × Rat × LightDraws) : Prop where
  length : i.1.length = n
  known : ∀ k ∈ i.1, k < L.effective.length
  interval : ∀ j, i.2.2.interval j < 1
  place : ∀ j, 0 ≤ i.2.2.place j ∧ i.2.2.place j < 1

/-- The bulbs of household `h`: with `'config'` one of the configurations, with `'randn'` a number of bulbs around the mean, drawn by their share (`penetration`), followed by places without power. -/
def BulbsOf (src : LightSource) (algo : String) (args : LightArgs) (h : Nat) (row : List (Option Rat)) : Prop :=
  (algo = "config" ∧ src.configurations[args.config h]? = some row) ∨
  (algo = "randn" ∧ ∃ n, 1 ≤ n ∧ n ≤ row.length ∧ (1 ≤ src.mean + src.std * args.z h → (n : Rat) ≤ src.mean + src.std * args.z h ∧ src.mean + src.std * args.z h < n + 1) ∧ (src.mean + src.std * args.z h < 1 → n = 1) ∧
    (∀ k, k < n → ∃ j p w, src.penetration[j]? = some p ∧ (src.penetration.take j).sum ≤ args.u h k ∧ args.u h k < (src.penetration.take j).sum + p ∧ src.consumptions[j]? = some w ∧ row[k]? = some (some w)) ∧
    ∀ k, n ≤ k → k < row.length → row[k]? = some (some 0))

/-- Data and draws with which the bulbs can be drawn. -/
def BulbsOk (src : LightSource) (algo : String) (n : Nat) (args : LightArgs) : Prop :=
  (algo = "config" ∧ (∃ width, ∀ r ∈ src.configurations, r.length = width) ∧ ∀ h, h < n → args.config h < src.configurations.length) ∨
  (algo = "randn" ∧ src.penetration.length ≤ src.consumptions.length ∧ (∀ x ∈ src.penetration, 0 ≤ x) ∧ src.penetration.sum = 1 ∧ ∀ h k, 0 ≤ args.u h k ∧ args.u h k < 1)

end Demod
