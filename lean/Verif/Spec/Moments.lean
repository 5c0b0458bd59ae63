import Verif.Spec.Iso
import Verif.Spec.Simple
import Verif.Spec.Reopen

/-!
# What the text of a time means: specification

The notation of XML Schema for years, months, days and points in time, with the value.
-/

namespace Verif.Spec

/-- A fraction of a second: up to six digits, in microseconds. -/
def FractionText (us : Nat) (s : Str) : Prop :=
  s = [] ∧ us = 0 ∨ ∃ ds, s = '.' :: ds ∧ ds ≠ [] ∧ ds.length ≤ 6 ∧ DecDigits ds ∧ us = positional ds * 10 ^ (6 - ds.length)

/-- A time zone: none, `Z`, or hours and minutes, in minutes. -/
def OffsetText (o : Option Int) (s : Str) : Prop :=
  s = [] ∧ o = none ∨ s = ['Z'] ∧ o = some 0 ∨
  ∃ sign h m x y, s = sign :: h ++ ':' :: m ∧ TwoDigits h x ∧ TwoDigits m y ∧ y < 60 ∧ 60 * x + y ≤ 840 ∧
    (sign = '+' ∧ o = some ((60 * x + y : Nat) : Int) ∨ sign = '-' ∧ o = some (-((60 * x + y : Nat) : Int)))

/-- `YYYY-MM-DDTHH:MM:SS`, the fraction and the zone. -/
def DateTimeText (d : Date) (t : Time) (s : Str) : Prop :=
  ∃ day h mi sec frac zone, s = day ++ 'T' :: h ++ ':' :: mi ++ ':' :: sec ++ frac ++ zone ∧ IsoDate d day ∧ d.Valid ∧
    TwoDigits h t.h ∧ t.h < 24 ∧ TwoDigits mi t.mi ∧ t.mi < 60 ∧ TwoDigits sec t.s ∧ t.s < 60 ∧
    FractionText t.us frac ∧ OffsetText t.off zone

/-- The text means the year, month, day or point in time. -/
def TimeText (s : Str) (k : KmlDateTime) : Prop :=
  match k.res, k.dt with
  | .year, .date d => FourDigits s d.y ∧ 1 ≤ d.y ∧ d.m = 1 ∧ d.d = 1
  | .yearMonth, .date d => (∃ Y M, s = Y ++ '-' :: M ∧ FourDigits Y d.y ∧ TwoDigits M d.m) ∧ 1 ≤ d.y ∧ 1 ≤ d.m ∧ d.m ≤ 12 ∧ d.d = 1
  | .date, .date d => IsoDate d s ∧ d.Valid
  | .datetime, .dt d t => DateTimeText d t s
  | _, _ => False

/-- A time without a zone counts as UTC. -/
def inUtc (k : KmlDateTime) : KmlDateTime :=
  match k.dt with
  | .date _ => k
  | .dt d t => { k with dt := .dt d { t with off := some (t.off.getD 0) } }

/-- The law that theorems about the text of times may assume: `arrow.get` reads the points
in time of XML Schema. -/
class ReadsTimes (F : Type) [PyExt F] : Prop where
  arrow_get : ∀ (d : Date) (t : Time) (s : Str), DateTimeText d t s →
    PyExt.arrowGet (F := F) s = some (d, { t with off := some (t.off.getD 0) })

end Verif.Spec
