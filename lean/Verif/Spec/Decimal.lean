import Verif.Py

/-!
# Specification: decimal numbers with a fixed number of decimals
-/

namespace Verif.Spec

/-- The number that a sequence of decimal digits denotes. -/
def positional (s : Str) : Nat := s.foldl (fun a c => a * 10 + (c.toNat - 48)) 0

/-- All characters are decimal digits. -/
def DecDigits (s : Str) : Prop := ∀ c ∈ s, '0' ≤ c ∧ c ≤ '9'

/-- `|a - b|`. -/
def dist (a b : Nat) : Nat := (a - b) + (b - a)

/-- `m` is `a / b` rounded to the nearest integer, to the even one if there are two. -/
def HalfEven (m a b : Nat) : Prop := 2 * dist a (m * b) ≤ b ∧ (2 * dist a (m * b) = b → m % 2 = 0)

/-- The text is a number with exactly `p` decimals (and at least one digit before
them), and the number is `num / den` (or `-num / den`, if `neg`) up to half a unit
of the last decimal. -/
def Approximates (p : Nat) (neg : Bool) (num den : Nat) (s : Str) : Prop :=
  ∃ int frac : Str, s = (if neg then ['-'] else []) ++ int ++ (if p = 0 then [] else ['.']) ++ frac ∧
    int ≠ [] ∧ DecDigits int ∧ frac.length = p ∧ DecDigits frac ∧
    -- |num/den - (int.frac)| ≤ 1/2 · 10^-p, multiplied by 2 · 10^p · den
    2 * dist (num * 10 ^ p) (positional (int ++ frac) * den) ≤ den

end Verif.Spec
