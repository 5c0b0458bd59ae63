import Verif.Spec.Decimal
import Verif.Spec.Scalars

/-!
# Specification: the text of integers
-/

namespace Verif.Spec

/-- A digit of any script, with its value (`decimalZeros` is the table of the digits zero). -/
def DecimalChar (c : Char) (d : Nat) : Prop := d < 10 ∧ ∃ z ∈ decimalZeros, c.toNat = z + d

/-- Digits with their values. -/
inductive Decimals : Str → List Nat → Prop where
  | nil : Decimals [] []
  | cons {c d s ds} : DecimalChar c d → Decimals s ds → Decimals (c :: s) (d :: ds)

/-- The number with these digits. -/
def decimalNumber (ds : List Nat) : Nat := ds.foldl (fun n d => 10 * n + d) 0

/-- Groups of digits with an underscore between neighbours; `ds` are the values of the digits. -/
inductive Grouped : Str → List Nat → Prop where
  | one {t ds} : t ≠ [] → Decimals t ds → Grouped t ds
  | more {t u ds es} : t ≠ [] → Decimals t ds → Grouped u es → Grouped (t ++ '_' :: u) (ds ++ es)

/-- White space around numbers: without the control characters U+001C to U+001F, which
`str.strip` takes for white space. -/
def IntBlank (s : Str) : Prop := ∀ c ∈ s, isSpace c = true ∧ ¬ (0x1C ≤ c.toNat ∧ c.toNat ≤ 0x1F)

/-- The number `i` in the notation of Python, with white space around it. -/
def IntText (s : Str) (i : Int) : Prop :=
  ∃ a sign t b ds, s = a ++ (sign ++ t) ++ b ∧ IntBlank a ∧ IntBlank b ∧ Grouped t ds ∧
    ((sign = [] ∨ sign = ['+']) ∧ i = (decimalNumber ds : Int) ∨ sign = ['-'] ∧ i = -(decimalNumber ds : Int))

/-- The number in decimal notation without superfluous characters. -/
def Numeral (i : Int) (s : Str) : Prop :=
  ∃ ds, s = (if i < 0 then ['-'] else []) ++ ds ∧ ds ≠ [] ∧ DecDigits ds ∧ positional ds = i.natAbs ∧
    (ds.head? = some '0' → ds = ['0'])

end Verif.Spec
