import Verif.Model.Destatis
import Verif.Spec.Utils

/-! # The tables of the German statistical office -/

namespace Demod

/-- The groups of households of the report. -/
inductive Stratum where
  | alone
  | man
  | woman
  | couple
  /-- Lone parents with a number of children. -/
  | lone (children : Nat)
  /-- Couples with a number of children. -/
  | family (children : Nat)
  | persons (n : Nat)
  /-- Monthly net income in euros. -/
  | income (r : Nat)
  | year (y : Nat)

/-- The columns of the report, counted from 0: 2008, 2013, 2018; 1 to 4 and 5 or more persons; incomes under 900, 900 – 1300, 1300 – 1500, 1500 – 2000, 2000 – 2600, 2600 – 3600, 3600 – 5000, 5000 – 18000; living alone, of which men, of which
women; couples without children; lone parents with 1 and with 2 or more children; couples with 1, 2 and with 3 or more. -/
def reportColumn : Stratum → Nat
  | .year y => if y = 2008 then 2 else if y = 2013 then 3 else 4
  | .persons n => 12 + min n 5
  | .income r => 27 + ([900, 1300, 1500, 2000, 2600, 3600, 5000].countP fun bound => decide (bound ≤ r))
  | .alone => 47
  | .man => 48
  | .woman => 49
  | .couple => 52
  | .lone c => if c = 1 then 58 else 59
  | .family c => if c = 1 then 61 else if c = 2 then 62 else 63

/-- The households that a subgroup describes. -/
inductive Describes (g : Subgroup) : Stratum → Prop where
  | alone : g.at kHouseholdType = some (.int 1) → g.at kGender = none → Describes g .alone
  | man : g.at kHouseholdType = some (.int 1) → g.at kGender = some (.int 1) → Describes g .man
  | woman : g.at kHouseholdType = some (.int 1) → g.at kGender = some (.int 2) → Describes g .woman
  | couple : g.at kHouseholdType = some (.int 2) → Describes g .couple
  | lone (c : Nat) : 1 ≤ c → g.at kHouseholdType = some (.int 3) → g.at kNResidents = some (.int (1 + c)) → Describes g (.lone c)
  | family (c : Nat) : 1 ≤ c → g.at kHouseholdType = some (.int 4) → g.at kNResidents = some (.int (2 + c)) → Describes g (.family c)
  | persons (n : Nat) : 1 ≤ n → g.at kHouseholdType = none → g.at kNResidents = some (.int n) → Describes g (.persons n)
  | income (r : Nat) : g.at kHouseholdType = none → g.at kNResidents = none → g.at kRevenue = some (.int r) → Describes g (.income r)
  | year (y : Nat) : y = 2008 ∨ y = 2013 ∨ y = 2018 → g.at kHouseholdType = none → g.at kNResidents = none → g.at kRevenue = none → g.at kYear = some (.int y) → Describes g (.year y)

/-- The groups that the loader finds. -/
def Stratum.Covered : Stratum → Prop
  | .lone c => c ≤ 3
  | .family c => c ≤ 3
  | .persons n => n ≤ 5
  | .income r => r ≠ 0
  | _ => True

/-- A type of the table without its spaces. -/
def trimmed (t : Str) : Str := t.filter fun c => decide (c ≠ ' ')

/-- The rows of numbers of appliances of the table: type (without spaces), appliances per 100 households and percent of the households that are equipped, which is 51 rows below. -/
def IsRow (types : List (Option Str)) (column : List (Option Rat)) (it : Nat) (t : Str) (number share : Option Rat) : Prop :=
  it < 56 ∧ (∃ s, types[it]? = some (some s) ∧ trimmed s = t) ∧ column[it]? = some number ∧ column[it + 51]? = some share

/-- Possible values of a row: at most all the households are equipped, and with one appliance at least. -/
def PossibleRow (number share : Option Rat) : Prop :=
  (∀ n, number = some n → 0 ≤ n) ∧ (∀ p, share = some p → 0 ≤ p ∧ p ≤ 100) ∧ ∀ n p, number = some n → share = some p → p ≤ n

/-- A column of the table that can be read: each type has its two cells, with possible values. -/
def PossibleColumn (types : List (Option Str)) (column : List (Option Rat)) : Prop :=
  ∀ it < 56, ∀ s, types[it]? = some (some s) → ∃ number share, column[it]? = some number ∧ column[it + 51]? = some share ∧ PossibleRow number share

/-- Each type has one row, and none is named like the number `k` of another one. -/
def DistinctTypes (types : List (Option Str)) : Prop :=
  (((types.take 56).filterMap id).map trimmed).Nodup ∧
    ∀ s s', some s ∈ types.take 56 → some s' ∈ types.take 56 → ∀ k, 1 ≤ k → trimmed s ≠ trimmed s' ++ '_' :: decimal k

/-- The average number of appliances of a household; what is missing counts for 0, and without number there is at most one. -/
def averageNumber (number share : Option Rat) : Rat :=
  match number, share with
  | some n, some _ => n / 100
  | none, some p => p / 100
  | _, none => 0

/-- The probabilities of owning a first, second, … appliance: the first one is the share of the equipped households, all are probabilities and they sum to the average number. -/
def IsOwnership (number share : Option Rat) (probs : List Rat) : Prop :=
  probs.head? = some (match share with | some p => p / 100 | none => 0) ∧ (∀ x ∈ probs, 0 ≤ x ∧ x ≤ 1) ∧ probs.sum = averageNumber number share

end Demod
