import Verif.Spec.Scalars

/-!
# Specification: the text of `<coordinates>`
-/

namespace Verif.Spec

/-- A tuple as it may be typed: the first number, then for each further number
the blanks after the comma and the number. -/
structure TupleText where
  first : Str
  rest : List (Str × Str)

/-- The numbers of a tuple. -/
def TupleText.parts (t : TupleText) : List Str := t.first :: t.rest.map Prod.snd

/-- The rest of a tuple as text. -/
def restText : List (Str × Str) → Str
  | [] => []
  | (blanks, p) :: r => [','] ++ blanks ++ p ++ restText r

/-- A tuple as text. -/
def TupleText.text (t : TupleText) : Str := t.first ++ restText t.rest

/-- The numbers are non-empty words without commas (any words, not only
numbers), and only blanks (U+0020) follow a comma. -/
def TupleText.Ok (t : TupleText) : Prop :=
  (∀ p ∈ t.parts, p ≠ [] ∧ ∀ c ∈ p, isSpace c = false ∧ c ≠ ',') ∧
  (∀ q ∈ t.rest, ∀ c ∈ q.1, c = ' ')

/-- Tuples separated by whitespace: a list of (tuple, separator) and a last
tuple. -/
def bodyText : List (TupleText × Str) → TupleText → Str
  | [], last => last.text
  | (t, sep) :: r, last => t.text ++ sep ++ bodyText r last

/-- A coordinates text with at least one tuple: leading whitespace, tuples with
non-empty whitespace between them, trailing whitespace. -/
structure Spaced where
  lead : Str
  init : List (TupleText × Str)
  last : TupleText
  trail : Str

/-- The text. -/
def Spaced.text (s : Spaced) : Str := s.lead ++ bodyText s.init s.last ++ s.trail

/-- The tuples, as lists of words. -/
def Spaced.tuples (s : Spaced) : List (List Str) := s.init.map (fun p => p.1.parts) ++ [s.last.parts]

/-- Well-formedness. -/
def Spaced.Ok (s : Spaced) : Prop :=
  Blank s.lead ∧ Blank s.trail ∧ s.last.Ok ∧ ∀ p ∈ s.init, p.1.Ok ∧ Blank p.2 ∧ p.2 ≠ []

end Verif.Spec
