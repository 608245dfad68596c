import Verif.Model.Similarity

/-! # Edits of a profile -/

namespace Demod

/-- `q` is `p` with one value inserted, deleted or replaced. -/
inductive Edit {α : Type} : List α → List α → Prop
  | insertion (pre post : List α) (x : α) : Edit (pre ++ post) (pre ++ x :: post)
  | deletion (pre post : List α) (x : α) : Edit (pre ++ x :: post) (pre ++ post)
  | replacement (pre post : List α) (x y : α) : Edit (pre ++ x :: post) (pre ++ y :: post)

/-- `n` edits, one after the other, turn `p` into `q`. -/
inductive EditsIn {α : Type} : Nat → List α → List α → Prop
  | nothing (p : List α) : EditsIn 0 p p
  | more (n : Nat) (p q r : List α) : EditsIn n p q → Edit q r → EditsIn (n + 1) p r

/-- All values are single digits. -/
def Digits (p : List Int) : Prop := ∀ v ∈ p, 0 ≤ v ∧ v ≤ 9

/-- Row `i` of the array. -/
def profile {α : Type} (D : Diaries α) (i : Nat) : List α := (List.range D.nT).map fun t => D.at' i t

end Demod
