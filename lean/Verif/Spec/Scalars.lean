import Verif.Py
import Verif.Enums
import Verif.Spec.Lists

/-!
# Specification: scalar texts

What the English properties C18, C19 and C23 say, without reference to the code.
-/

namespace Verif.Spec

/-- The texts of the XSD type `boolean` with value `b`. -/
def BoolText (b : Bool) (t : Str) : Prop :=
  match b with
  | true => t = s% "1" ∨ t = s% "true"
  | false => t = s% "0" ∨ t = s% "false"

/-- The code points of Python's white space, `str.isspace`. -/
def whiteSpace : List Nat := [9, 10, 11, 12, 13, 28, 29, 30, 31, 32, 0x85, 0xA0, 0x1680, 0x2000, 0x2001, 0x2002, 0x2003,
  0x2004, 0x2005, 0x2006, 0x2007, 0x2008, 0x2009, 0x200A, 0x2028, 0x2029, 0x202F, 0x205F, 0x3000]

/-- The characters that are the same letter but for case; the third `k` is KELVIN SIGN. -/
def letters : List (List Char) := [['a', 'A'], ['b', 'B'], ['c', 'C'], ['d', 'D'], ['e', 'E'], ['f', 'F'], ['g', 'G'],
  ['h', 'H'], ['i', 'I'], ['j', 'J'], ['k', 'K', '\u212A'], ['l', 'L'], ['m', 'M'], ['n', 'N'], ['o', 'O'], ['p', 'P'],
  ['q', 'Q'], ['r', 'R'], ['s', 'S'], ['t', 'T'], ['u', 'U'], ['v', 'V'], ['w', 'W'], ['x', 'X'], ['y', 'Y'], ['z', 'Z']]

/-- The same character, or the same letter but for case. -/
def SameLetter (c d : Char) : Prop := c = d ∨ ∃ g ∈ letters, c ∈ g ∧ d ∈ g

/-- The same text but for case. -/
def SameWord : Str → Str → Prop := All2 SameLetter

/-- A run of whitespace (`C23_white`: these are the code points of `whiteSpace`). -/
def Blank (s : Str) : Prop := ∀ c ∈ s, isSpace c = true

/-- `t` is the core of `s`: `s` with the whitespace at both ends removed. -/
def CoreOf (s t : Str) : Prop :=
  (∃ a b, Blank a ∧ Blank b ∧ s = a ++ t ++ b) ∧
  (∀ c r, t = c :: r → isSpace c = false) ∧ (∀ c r, t = r ++ [c] → isSpace c = false)

end Verif.Spec
