import Verif.Model.InputFile

/-! # The content of the excel file of inputs -/

namespace Demod

/-- A text without its spaces. -/
def unspaced (s : Str) : Str := s.filter fun c => !(c == ' ')

/-- What is kept of a cell: a text loses its spaces. -/
def cleaned : Cell → Cell
  | .text s => .text (unspaced s)
  | c => c

/-- The label of a column that the author of the sheet named (pandas names the others `Unnamed: 3`). -/
def Named (label : Str) : Prop := ¬ ∃ rest, label = "Unnamed:".toList ++ rest

/-- The last of the named columns whose label is `k` without its spaces. -/
def IsLastColumn (cols : List (Str × List Cell)) (k : Str) (cells : List Cell) : Prop :=
  ∃ a label b, cols = a ++ (label, cells) :: b ∧ Named label ∧ unspaced label = k ∧ ∀ c ∈ b, Named c.1 → unspaced c.1 ≠ k

/-- A sheet whose named columns only have texts, numbers, booleans and empty cells. -/
def PlainCells (cols : List (Str × List Cell)) : Prop := ∀ c ∈ cols, Named c.1 → Cell.other ∉ c.2

/-- The columns of yes and no. -/
def yesNo : List Str := ["inactive_switch_off".toList, "uses_water".toList]

/-- A cell that means no: 0, false, or a text of spaces only. -/
def MeansNo (c : Cell) : Prop := c = .num 0 ∨ c = .bool false ∨ ∃ s : Str, c = .text s ∧ ∀ x ∈ s, x = ' '

end Demod
