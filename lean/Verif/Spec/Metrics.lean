import Verif.Model.Metrics
import Verif.Spec.Parse

/-! # What the metrics measure -/

namespace Demod

/-- `m` is the largest element of the list. -/
def IsMaxOf (xs : List Rat) (m : Rat) : Prop := m ∈ xs ∧ ∀ x ∈ xs, x ≤ m

/-- The load of all profiles together at time `t`. -/
def aggregateAt (D : Diaries Rat) (t : Nat) : Rat := ((List.range D.nP).map fun p => D.at' p t).sum

/-- The profiles `A` followed by the profiles `B` in time. -/
def concatTime (A B : Diaries Rat) : Diaries Rat :=
  ⟨A.nP, A.nT + B.nT, fun p t => if t < A.nT then A.at' p t else B.at' p (t - A.nT)⟩

/-- The sum of two arrays of profiles. -/
def addProfiles (A B : Diaries Rat) : Diaries Rat := ⟨A.nP, A.nT, fun p t => A.at' p t + B.at' p t⟩

/-- The profiles scaled. -/
def scaleProfiles (c : Rat) (A : Diaries Rat) : Diaries Rat := ⟨A.nP, A.nT, fun p t => c * A.at' p t⟩

section
variable {σ : Type} [DecidableEq σ]

/-- The runs of pattern `p` on the circular day, as (duration, state): one run of full length for a
constant pattern, otherwise one run for every time at which the state differs from the one
before. -/
def patternRuns (D : Diaries σ) (p : Nat) : List (Nat × σ) :=
  if (List.range D.nT).all fun t => decide (D.at' p t = D.at' p 0) then [(D.nT, D.at' p 0)]
  else ((List.range D.nT).filter fun t => decide (D.at' p t ≠ D.at' p (if t = 0 then D.nT - 1 else t - 1))).map
    fun t => (runLength D p t, D.at' p t)

end
end Demod
