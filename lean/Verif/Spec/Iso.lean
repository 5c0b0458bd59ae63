import Verif.Spec.Times

/-!
# Specification: ISO 8601

The text of a date and time.
-/

namespace Verif.Spec

/-- `YYYY-MM-DD`. -/
def IsoDate (d : Date) (s : Str) : Prop :=
  ∃ Y M D, s = Y ++ '-' :: M ++ '-' :: D ∧ FourDigits Y d.y ∧ TwoDigits M d.m ∧ TwoDigits D d.d

/-- Nothing for no microseconds, otherwise a dot and six digits. -/
def IsoFraction (us : Nat) (s : Str) : Prop :=
  if us = 0 then s = []
  else ∃ a b c x y z, s = '.' :: (a ++ b ++ c) ∧ TwoDigits a x ∧ TwoDigits b y ∧ TwoDigits c z ∧
    us = 10000 * x + 100 * y + z

/-- Nothing for no offset; otherwise the sign, which is `+` for zero, the hours, a colon
and the minutes. -/
def IsoZone : Option Int → Str → Prop
  | none, s => s = []
  | some o, s => ∃ sign h m x y, s = sign :: h ++ ':' :: m ∧ TwoDigits h x ∧ TwoDigits m y ∧ y < 60 ∧
      (sign = '+' ∧ o = ((60 * x + y : Nat) : Int) ∨ sign = '-' ∧ o = -((60 * x + y : Nat) : Int) ∧ o ≠ 0)

/-- `YYYY-MM-DDTHH:MM:SS`, the fraction and the offset. -/
def IsoDateTime (d : Date) (t : Time) (s : Str) : Prop :=
  ∃ day h mi sec frac zone, s = day ++ 'T' :: h ++ ':' :: mi ++ ':' :: sec ++ frac ++ zone ∧ IsoDate d day ∧
    TwoDigits h t.h ∧ TwoDigits mi t.mi ∧ TwoDigits sec t.s ∧ IsoFraction t.us frac ∧ IsoZone t.off zone

end Verif.Spec
