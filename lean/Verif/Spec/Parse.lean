import Verif.Model.Parse

/-! # What the transitions of a set of diaries are -/

namespace Demod
variable {σ : Type} [DecidableEq σ]

/-- The state of diary `p` just before time `t`; before the first time step this is the state at
the end of the day, or, when that transition is ignored, the first state itself. -/
def Diaries.before (D : Diaries σ) (ignoreEndStart : Bool) (p t : Nat) : σ :=
  if t = 0 then (if ignoreEndStart then D.at' p 0 else D.at' p (D.nT - 1)) else D.at' p (t - 1)

/-- The records `(time, person, old, new)` of all the changes, by time and then by person. -/
def changes (D : Diaries σ) (includeSame ignoreEndStart : Bool) : List (Nat × Nat × σ × σ) :=
  (List.range D.nT).flatMap fun t =>
    ((List.range D.nP).filter fun p => includeSame || decide (D.before ignoreEndStart p t ≠ D.at' p t)).map
      fun p => (t, p, D.before ignoreEndStart p t, D.at' p t)

/-- Rebuild the state of diary `p` at time `t` from the first states and a list of records: the
new state of the last record of `p` up to `t`. -/
def rebuild (first : Nat → σ) (recs : List (Nat × Nat × σ × σ)) (p t : Nat) : σ :=
  match (recs.filter fun r => decide (r.2.1 = p ∧ r.1 ≤ t)).getLast? with
  | some r => r.2.2.2
  | none => first p

/-- From time `t` on, and around midnight, diary `p` keeps its state for exactly `d` time steps,
`d > 0`. -/
def IsRun (D : Diaries σ) (p t d : Nat) : Prop :=
  0 < d ∧ (∀ j, j < d → D.at' p ((t + j) % D.nT) = D.at' p t) ∧ D.at' p ((t + d) % D.nT) ≠ D.at' p t

/-- The number of time steps during which diary `p` keeps, from time `t` on and around midnight, the
state it has at `t` (the whole day if it never changes). -/
def runLength (D : Diaries σ) (p t : Nat) : Nat :=
  ((List.range D.nT).find? fun d => decide (D.at' p ((t + d) % D.nT) ≠ D.at' p t)).getD D.nT

/-- The duration of the state entered at `t`: its run length, except that, when the transition
from the end to the start of the day is ignored, a last stretch that does not continue in the first
one has no duration. -/
def keptFor (D : Diaries σ) (ignoreEndStart : Bool) (p t : Nat) : Nat :=
  if ignoreEndStart = true ∧ D.at' p 0 ≠ D.at' p (D.nT - 1) ∧
      (List.range D.nT).all (fun x => decide (t ≤ x → D.at' p x = D.at' p t)) then 0
  else runLength D p t

/-- The number of time steps during which diary `p` keeps its first state. -/
def firstDuration (D : Diaries Nat) (p : Nat) : Nat :=
  ((List.range D.nT).find? fun t => decide (D.at' p 0 ≠ D.at' p t)).getD D.nT

/-- A strict total order given as a boolean test. -/
structure StrictTotal {α : Type} (lt : α → α → Bool) : Prop where
  irrefl : ∀ a, lt a a = false
  trans : ∀ a b c, lt a b = true → lt b c = true → lt a c = true
  total : ∀ a b, lt a b = false → lt b a = false → a = b

/-- The number of diaries with a property. -/
def howMany (D : Diaries Nat) (P : Nat → Bool) : Nat := (List.range D.nP).countP P

/-- The time whose transitions the matrix `t` describes: with the `last` option the first matrix
is a copy of the last one. -/
def sourceTime (D : Diaries Nat) (algo : FirstTpm) (t : Nat) : Nat :=
  if t = 0 ∧ algo = .last then D.nT - 1 else t

/-- A row is a probability distribution on `0 … n-1`. -/
def IsPdf (n : Nat) (f : Nat → Rat) : Prop := (∀ j, 0 ≤ f j) ∧ ((List.range n).map f).sum = 1

/-- The persons whose state in `X` just before time `t` is, at `t`, neither their primary nor their
secondary state. Nothing vanishes at the first time step. -/
def vanished (X P S : Diaries σ) (t : Nat) : List Nat :=
  (List.range P.nP).filter fun p => decide (X.at' p (t - 1) ≠ P.at' p t) && decide (X.at' p (t - 1) ≠ S.at' p t)

/-- The events of time `t`: vanished primary states, replaced by the new primary state, then vanished
secondary states. -/
def eventsAt (P S : Diaries σ) (t : Nat) : List (Nat × Nat × σ × σ) :=
  ((vanished P P S t).map fun p => (t, p, P.at' p (t - 1), P.at' p t)) ++
    (vanished S P S t).map fun p => (t, p, S.at' p (t - 1), S.at' p t)

/-- Diary `p` enters state `j` at time `t` and keeps it for `d` time steps. -/
def entersFor (D : Diaries Nat) (ign : Bool) (t j d p : Nat) : Bool :=
  decide (D.before ign p t ≠ D.at' p t ∧ D.at' p t = j ∧ keptFor D ign p t = d)

/-- Diary `p` enters state `j` at time `t`. -/
def enters (D : Diaries Nat) (ign : Bool) (t j p : Nat) : Bool :=
  decide (D.before ign p t ≠ D.at' p t ∧ D.at' p t = j)

/-- Diary `p` is in state `j` the whole day. -/
def staysIn (D : Diaries Nat) (j p : Nat) : Bool := (List.range D.nT).all fun t => D.at' p t == j

end Demod
