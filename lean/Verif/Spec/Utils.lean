import Verif.Model.Utils

/-! # Specifications for the utilities -/

namespace Demod

/-- `t` is `s` itself or what follows some `'_'` in `s`. -/
def IsParent (s t : Str) : Prop := t = s ∨ ∃ a, s = a ++ '_' :: t

/-- The name of the entry of the `k`-th copy of an appliance of type `T`: `T`, `T_2`, `T_3`, … -/
def copyKey (T : Str) (k : Nat) : Str := if k = 1 then T else T ++ '_' :: decimal k

/-- Which copy of its closest type the `i`-th appliance is, counting from 1. -/
def copyNumber (closest : List (Option Str)) (i : Nat) (T : Str) : Nat :=
  (closest.take (i + 1)).countP fun c => decide (c = some T)

/-- The content of a subgroup at a key. -/
abbrev Subgroup.at (s : Subgroup) (k : Str) : Option SubVal := lookupA s k

/-- The keys of a python dict are distinct. -/
def DistinctKeys {α : Type} (s : List (Str × α)) : Prop := (s.map (·.1)).Nodup

/-- Every value has the type (list or not) that belongs to its key. -/
def WellTyped (isList : Str → Bool) (s : Subgroup) : Prop :=
  ∀ q ∈ s, match q.2 with
    | .int _ => isList q.1 = false
    | .list _ => isList q.1 = true

/-- The characters of the values. -/
def isValueChar (c : Char) : Bool := c ∈ ['0', '1', '2', '3', '4', '5', '6', '7', '8', '9', '-', ',']

/-- The usual subgroups: distinct keys without digits, `-` or `,`; integer values, or lists of at least two
integers. -/
def Usual (s : Subgroup) : Prop :=
  DistinctKeys s ∧ ∀ q ∈ s, (∀ c ∈ q.1, isValueChar c = false) ∧ ∀ l, q.2 = .list l → 2 ≤ l.length

/-- The household position of a person: 1 main income, 2 spouse or other adult, 3 child. -/
def position (s : Subgroup) : Option SubVal := lookupA s kPosition

end Demod
