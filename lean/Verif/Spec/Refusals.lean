import Verif.Model.Py

/-! # Messages with fields -/

namespace Demod

/-- A part of a template: text, the next positional argument or the keyword argument of a name. -/
inductive Piece where
  | text (s : List Char)
  | next
  | named (name : List Char)

/-- How a part is written. -/
def Piece.write : Piece → List Char
  | .text s => s
  | .next => ['{', '}']
  | .named name => '{' :: (name ++ ['}'])

/-- Texts and names have no braces, names are not empty. -/
def Piece.Plain : Piece → Prop
  | .text s => '{' ∉ s ∧ '}' ∉ s
  | .next => True
  | .named name => name ≠ [] ∧ '}' ∉ name

/-- The message: the texts and the values in order. The first field without a value raises, an `IndexError` for a positional argument and a `KeyError` for a keyword. -/
def filled (kw : List (List Char × List Char)) : List Piece → List (List Char) → Except PyErr (List Char)
  | [], _ => .ok []
  | .text s :: ps, args => (filled kw ps args).map fun r => s ++ r
  | .next :: _, [] => .error .indexError
  | .next :: ps, a :: args => (filled kw ps args).map fun r => a ++ r
  | .named k :: ps, args =>
    match kw.find? fun p => p.1 = k with
    | none => .error .keyError
    | some p => (filled kw ps args).map fun r => p.2 ++ r

end Demod
