import Verif.Times

/-!
# Specification: dates

What C20-C22 say, without reference to the code that parses and prints.
-/

namespace Verif.Spec

/-- Two ASCII digits with value `n`. -/
def TwoDigits (s : Str) (n : Nat) : Prop :=
  ∃ a b x y, s = [a, b] ∧ digitVal a = some x ∧ digitVal b = some y ∧ n = 10 * x + y

/-- Four ASCII digits with value `n`. -/
def FourDigits (s : Str) (n : Nat) : Prop :=
  ∃ u v x y, s = u ++ v ∧ TwoDigits u x ∧ TwoDigits v y ∧ n = 100 * x + y

/-- Two digits of any script with value `n` (`decimalZeros` is the table of the digits zero). -/
def TwoDecimals (s : Str) (n : Nat) : Prop :=
  ∃ a b x y z w, s = [a, b] ∧ x < 10 ∧ y < 10 ∧ z ∈ decimalZeros ∧ w ∈ decimalZeros ∧ a.toNat = z + x ∧ b.toNat = w + y ∧
    n = 10 * x + y

/-- Four digits with value `n`. -/
def FourDecimals (s : Str) (n : Nat) : Prop :=
  ∃ u v x y, s = u ++ v ∧ TwoDecimals u x ∧ TwoDecimals v y ∧ n = 100 * x + y

/-- An optional group: empty, or two digits. -/
def OptTwo (s : Str) : Option Nat → Prop
  | none => s = []
  | some n => TwoDecimals s n

/-- An optional dash. -/
def OptDash (s : Str) : Prop := s = [] ∨ s = ['-']

/-- `s` splits according to the documented pattern
`^(\d{4})(?:-)?(\d{2})?(?:-)?(\d{2})?$` with these group values (`$` also
matches before a final newline). -/
def DatePattern (s : Str) (y : Nat) (m d : Option Nat) : Prop :=
  ∃ Y d1 M d2 D nl, s = Y ++ d1 ++ M ++ d2 ++ D ++ nl ∧ FourDecimals Y y ∧ OptDash d1 ∧ OptTwo M m ∧
    OptDash d2 ∧ OptTwo D d ∧ (nl = [] ∨ nl = ['\n'])

/-- Truncate a moment to a resolution. -/
def truncate : Resolution → Moment → Moment
  | .year, m => .date ⟨m.day.y, 1, 1⟩
  | .yearMonth, m => .date ⟨m.day.y, m.day.m, 1⟩
  | .date, m => .date m.day
  | .datetime, m => m

end Verif.Spec
