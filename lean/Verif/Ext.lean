import Verif.Times
import Verif.Spec.Iso

/-!
# The external world

What fastkml takes from CPython's `float` and from the package `arrow`, as a
parameter (`PyExt`) with the laws that theorems may assume (`LawfulExt`).  A
concrete instance is constructed in `Verif/ExtInst.lean`, so the laws are
consistent.
-/

namespace Verif

/-- The external functions over an abstract type `F` of Python floats (NaN
payloads are not distinguished). -/
class PyExt (F : Type) where
  /-- `str(f)` (fastkml/helpers.py:433, 449, 564; fastkml/geometry.py:171). -/
  repr : F → Str
  /-- `float(s)`; `none` is `ValueError` (fastkml/helpers.py:753, 927, 973, 1172;
  fastkml/geometry.py:216). -/
  parse : Str → Option F
  /-- `f"{f:.{p}f}"` (fastkml/helpers.py:566; fastkml/geometry.py:173). -/
  fixed : Nat → F → Str
  /-- `float(i)` for an `int`, more precisely `float(str(i))`. -/
  ofInt : Int → F
  /-- The float literal `n / 10^d` of a source file (registration defaults). -/
  ofDec : Int → Nat → F
  /-- `f == g`. -/
  beq : F → F → Bool
  /-- `bool(f)` (fastkml/helpers.py:753). -/
  truthy : F → Bool
  /-- `math.isnan(f)` (pygeoif `Point.is_empty`). -/
  isNaN : F → Bool
  /-- `arrow.get(s).datetime`; `none` is an error derived from `ValueError`
  (fastkml/times.py:213). -/
  arrowGet : Str → Option (Date × Time)

/-- A word without whitespace and commas. -/
def Plain (s : Str) : Prop := s ≠ [] ∧ ∀ c ∈ s, isSpace c = false ∧ c ≠ ','

instance (s : Str) : Decidable (Plain s) := by unfold Plain; infer_instance

/-- The laws of the external functions that theorems may assume. -/
class LawfulExt (F : Type) [PyExt F] : Prop where
  /-- `float(str(f))` is `f` (shortest repr round-trips). -/
  parse_repr : ∀ f : F, PyExt.parse (PyExt.repr f) = some f
  /-- `str(f)` has no blanks or commas. -/
  repr_plain : ∀ f : F, Plain (PyExt.repr f)
  /-- `float(str(i))`. -/
  parse_int : ∀ i : Int, PyExt.parse (F := F) (intRepr i) = some (PyExt.ofInt i)
  /-- Fixed-point output is a number without blanks or commas. -/
  fixed_plain : ∀ p (f : F), Plain (PyExt.fixed p f)
  fixed_parse : ∀ p (f : F), ∃ g : F, PyExt.parse (PyExt.fixed p f) = some g
  /-- `float('')` fails. -/
  parse_nil : PyExt.parse (F := F) [] = none
  /-- `==` is reflexive exactly on non-NaN values, and symmetric. -/
  beq_refl : ∀ f : F, PyExt.beq f f = !PyExt.isNaN f
  beq_symm : ∀ f g : F, PyExt.beq f g = PyExt.beq g f
  beq_nan : ∀ f g : F, PyExt.isNaN f = true → PyExt.beq f g = false
  /-- `arrow.get` reads the ISO 8601 text of an aware datetime. -/
  arrow_iso : ∀ (d : Date) (t : Time) (s : Str), d.Valid → t.Valid → t.off.isSome → Spec.IsoDateTime d t s →
    PyExt.arrowGet (F := F) s = some (d, t)
  /-- `arrow.get` reads a naive ISO string as UTC. -/
  arrow_naive : ∀ (d : Date) (t : Time) (s : Str), d.Valid → t.Valid → t.off = none → Spec.IsoDateTime d t s →
    PyExt.arrowGet (F := F) s = some (d, { t with off := some 0 })
  /-- `arrow.get` returns aware, valid datetimes. -/
  arrow_valid : ∀ (s : Str) (d : Date) (t : Time),
    PyExt.arrowGet (F := F) s = some (d, t) → d.Valid ∧ t.Valid ∧ t.off.isSome

end Verif
