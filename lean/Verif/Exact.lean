import Verif.Ext
import Verif.Spec.Decimal

/-!
# The exact value of floats

What `LawfulExt` leaves open about `f"{f:.{p}f}"` and `float(s)`: the conversions
of CPython are correctly rounded.  Only C17 uses these laws.  They are met by
`SFix` in `Verif/ExactInst.lean`, so they are consistent.
-/

namespace Verif

open Spec

/-- The exact value of a finite float: its sign bit and its absolute value as a
fraction. -/
class ExactExt (F : Type) where
  finite : F → Bool
  neg : F → Bool
  num : F → Nat
  den : F → Nat

/-- `m / 10^p` with `p` decimals. -/
def decimal (p m : Nat) : Str :=
  natRepr (m / 10 ^ p) ++ (if p = 0 then [] else '.' :: pad p (m % 10 ^ p))

/-- A sign. -/
def signed (neg : Bool) (s : Str) : Str := if neg then '-' :: s else s

/-- The laws. -/
class LawfulExact (F : Type) [PyExt F] [ExactExt F] : Prop where
  den_pos : ∀ f : F, 0 < ExactExt.den f
  /-- `f"{f:.{p}f}"` is the exact value rounded half to even; the sign bit is kept,
  also for zero. -/
  fixed_exact : ∀ p (f : F), ExactExt.finite f = true →
    ∃ m, HalfEven m (ExactExt.num f * 10 ^ p) (ExactExt.den f) ∧
      PyExt.fixed p f = signed (ExactExt.neg f) (decimal p m)
  /-- NaN and the infinities are written as by `str`. -/
  fixed_nonfinite : ∀ p (f : F), ExactExt.finite f = false → PyExt.fixed p f = PyExt.repr f
  finite_number : ∀ f : F, ExactExt.finite f = true → PyExt.isNaN f = false
  /-- `float(s)` of a decimal number is a float nearest to it (if that is finite),
  with the sign of the text. -/
  parse_nearest : ∀ (b : Bool) (p m : Nat) (g : F), PyExt.parse (signed b (decimal p m)) = some g →
    ExactExt.finite g = true → ExactExt.neg g = b ∧ ∀ f : F, ExactExt.finite f = true →
      dist (ExactExt.num g * 10 ^ p) (m * ExactExt.den g) * ExactExt.den f ≤
        dist (ExactExt.num f * 10 ^ p) (m * ExactExt.den f) * ExactExt.den g
  /-- A rounded finite float does not become infinite. -/
  parse_finite : ∀ p (f g : F), ExactExt.finite f = true → PyExt.parse (PyExt.fixed p f) = some g →
    ExactExt.finite g = true

end Verif
