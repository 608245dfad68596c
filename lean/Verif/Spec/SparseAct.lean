import Verif.Model.SparseAct
import Verif.Spec.Sparse
import Verif.Spec.Markov
import Verif.Spec.Equip
import Verif.Spec.Destatis

/-! # Specifications for the transit-states simulator -/

namespace Demod

/-- Which days are told apart: all are the same, week days and week-end days, or the seven days. -/
inductive DaySplit where
  | none | weekEnds | seven

/-- What the arguments ask for: both splits together are none. -/
def DaySplit.of (sevenDays weekEnds : Bool) : DaySplit :=
  match sevenDays, weekEnds with
  | true, false => .seven
  | false, true => .weekEnds
  | _, _ => .none

/-- The class of the day of a time (microseconds since Monday 1 January of year 1) for which the data are loaded. The quarter of the year is counted from 0. -/
def dayOf (split : DaySplit) (quarters : Bool) (t : Int) : DayClass where
  weekday := match split with
    | .none => .int 0
    | .weekEnds => if t / 86400000000 % 7 < 5 then .list [1, 2, 3, 4, 5] else .list [6, 7]
    | .seven => .int (t / 86400000000 % 7 + 1)
  quarter := if quarters then some ((((dateAt t).month : Int) - 1) / 3) else none

/-- The state `q` can be left at time slot `t`: it has an entry. -/
def SparseTPM.Leaves (tpm : SparseTPM) (t q : Nat) : Prop := ∃ e ∈ tpm.entries, e.1 = t ∧ e.2.1 = q

/-- Households are never stuck: either the first state can be left at every time; or it can be left at the first of 144 slots, when the data of a new day are loaded, and each transition leads to a state that can be left at the next slot of the same day. -/
def SparseTPM.NeverStuck (tpm : SparseTPM) : Prop :=
  (∀ t < tpm.nTimes, tpm.Leaves t 0) ∨ (tpm.nTimes = 144 ∧ tpm.Leaves 0 0 ∧ ∀ e ∈ tpm.entries, e.1 + 1 < 144 → tpm.Leaves (e.1 + 1) e.2.2.1)

/-- Valid data of a day: sorted entries, one label per state, the first label being a position as well; each row with entries is a distribution; households are never stuck. -/
structure ValidDay (tpm : SparseTPM) (labels : List Nat) : Prop where
  wf : tpm.WF
  sorted : ∀ t, tpm.SortedAt t
  size : labels.length = tpm.nStates
  nodup : labels.Nodup
  first : ∃ l0, labels[0]? = some l0 ∧ l0 < labels.length
  rows : ∀ (t : Nat) M q, tpm.getItem t = .ok M → tpm.Leaves (t % tpm.nTimes) q → IsDist (M.getD q [])
  stuck : tpm.NeverStuck

/-- The label of a household when the labels become those of a new day: it is kept, or, if the new day does not know it, it is the label whose position is the first label. -/
def Relabel (labels : List Nat) (l l' : Nat) : Prop :=
  (l ∈ labels → l' = l) ∧ (l ∉ labels → ∃ l0, labels[0]? = some l0 ∧ labels[l0]? = some l')

/-- The transition at slot `j` of a household with label `l` to label `l'` for the draw `u`: by the row of its state or, if it cannot be left at that time, the row of the first state. -/
def SparseMove (tpm : SparseTPM) (labels : List Nat) (j : Nat) (u : Rat) (l l' : Nat) : Prop :=
  ∃ M q p i, tpm.getItem j = .ok M ∧ labels[q]? = some l ∧ (tpm.Leaves (j % tpm.nTimes) q → p = q) ∧ (¬ tpm.Leaves (j % tpm.nTimes) q → p = 0) ∧
    labels[i]? = some l' ∧ ((M.getD p []).take i).sum < u ∧ u ≤ ((M.getD p []).take (i + 1)).sum

/-- The data for a subgroup and the classes of days. -/
abbrev DayData := DayClass → SparseTPM × List Nat

/-- The time at which the data of step `j` were loaded by a simulator started at `start`: the first step and every 144-th step after it load them, after the clock has moved. -/
def loadTime (start : Int) (j : Nat) : Int := start + ((j / 144 * 144 + 1 : Nat) : Int) * 600000000

/-- Step `j` of a household, from label `l` to `l'`. -/
def SparseStep (D : DayData) (split : DaySplit) (quarters : Bool) (start : Int) (j : Nat) (u : Rat) (l l' : Nat) : Prop :=
  let d := D (dayOf split quarters (loadTime start j))
  ∃ m, (j % 144 = 0 → Relabel d.2 l m) ∧ (j % 144 ≠ 0 → m = l) ∧ SparseMove d.1 d.2 j u m l'

/-- The course of the labels of a household, `traj j` after `j` steps, from the draw `u0` of its starting state and one draw per step. -/
def SparseCourse (D : DayData) (labels0 : List Nat) (pdf : List Rat) (split : DaySplit) (quarters : Bool) (start : Int) (u0 : Rat) (us : List Rat) (traj : Nat → Nat) : Prop :=
  (∃ i l, Sampled pdf u0 i ∧ labels0[i]? = some l ∧ Relabel (D (dayOf split quarters start)).2 l (traj 0)) ∧
    ∀ (j : Nat) u, us[j]? = some u → SparseStep D split quarters start j u (traj j) (traj (j + 1))

/-- The number of persons of a household doing the activity `a`: the digit, in base 7, of its label at the position of `a`. -/
def DoingCount (acts : List Str) (a : Str) (label c : Nat) : Prop := ∃ k, acts[k]? = some a ∧ c = label / 7 ^ k % 7

/-- `n` uniform draws other than 0. -/
def PosDraws (n : Nat) (us : List Rat) : Prop := us.length = n ∧ ∀ u ∈ us, 0 < u ∧ u < 1

/-- What the data must have for a subgroup: `labels0` and `pdf` are loaded for the subgroup as it was given, `D` is what is loaded for the classes of days. -/
structure SparseData (L : SparseLoad) (g : Subgroup) (labels0 : List Nat) (acts : List Str) (pdf : List Rat) (split : DaySplit) (quarters : Bool) (D : DayData) : Prop where
  given : ∃ tpm, L g none = .ok (tpm, labels0, acts, pdf) ∧ labels0.length = tpm.nStates
  pdf : IsDist pdf ∧ pdf.length = labels0.length
  day : ∀ t, ∃ x, L g (some (dayOf split quarters t)) = .ok ((D (dayOf split quarters t)).1, (D (dayOf split quarters t)).2, x)
  valid : ∀ t, ValidDay (D (dayOf split quarters t)).1 (D (dayOf split quarters t)).2
  acts : acts.Nodup ∧ "active".toList ∈ acts ∧ "HWH".toList ∈ acts ∧ "HOH".toList ∈ acts

/-- The number of residents of a subgroup. -/
def ResidentsOf (g : Subgroup) (r : Int) : Prop := g.at kNResidents = some (.int r) ∨ (g.at kNResidents = none ∧ r = 7)

end Demod
