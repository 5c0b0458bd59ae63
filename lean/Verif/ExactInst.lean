import Verif.Exact
import Verif.ExtInst

/-!
# An instance of the exact laws

Signed fixed-point numbers with six decimals, with a negative zero and a NaN.
-/

set_option linter.unusedSectionVars false
set_option linter.unusedSimpArgs false

namespace Verif

open Spec

/-- `none` is NaN, `some (neg, n)` is `± n / 10^6`. -/
structure SFix where
  val : Option (Bool × Nat)
deriving DecidableEq, Repr

namespace SFix

/-- `str(f)`. -/
def repr : SFix → Str
  | ⟨none⟩ => s% "nan"
  | ⟨some (b, n)⟩ => signed b (decimal 6 n)

/-- Fixed-point output. -/
def fixed (p : Nat) : SFix → Str
  | ⟨none⟩ => s% "nan"
  | ⟨some (b, n)⟩ => signed b (decimal p (Fix.roundDiv (n * 10 ^ p) Fix.scale))

/-- Unsigned decimal numbers, rounded to micro-units. -/
def parseU (s : Str) : Option Nat :=
  match splitOn '.' s with
  | [a] => (digitsVal 0 false a).map (· * Fix.scale)
  | [a, b] => match digitsVal 0 false a, digitsVal 0 false b with
    | some x, some y => some (Fix.roundDiv ((x * 10 ^ b.length + y) * Fix.scale) (10 ^ b.length))
    | _, _ => none
  | _ => none

/-- `float(s)`. -/
def parse (s : Str) : Option SFix :=
  if s = s% "nan" then some ⟨none⟩
  else match s with
    | '-' :: r => (parseU r).map fun n : Nat => ⟨some (true, n)⟩
    | r => (parseU r).map fun n : Nat => ⟨some (false, n)⟩

/-- `==`. -/
def beq : SFix → SFix → Bool
  | ⟨some (a, m)⟩, ⟨some (b, n)⟩ => m == n && (a == b || m == 0)
  | _, _ => false

instance : PyExt SFix where
  repr := repr
  parse := parse
  fixed := fixed
  ofInt i := ⟨some (decide (i < 0), i.natAbs * 1000000)⟩
  ofDec n d := ⟨some (decide (n < 0), n.natAbs * 1000000 / 10 ^ d)⟩
  beq := beq
  truthy f := match f.val with
    | some (_, n) => decide (n ≠ 0)
    | none => true
  isNaN f := f.val.isNone
  arrowGet := Fix.isoParse

instance : ExactExt SFix where
  finite f := f.val.isSome
  neg f := match f.val with | some (b, _) => b | none => false
  num f := match f.val with | some (_, n) => n | none => 0
  den _ := Fix.scale

theorem decimal_eq (p m : Nat) : decimal p m = Fix.dec p m := rfl

theorem signed_eq (b : Bool) (s : Str) : signed b s = Fix.sgn b s := rfl

theorem halfEven_roundDiv (n : Nat) {d : Nat} (hd : 0 < d) : HalfEven (Fix.roundDiv n d) n d := by
  unfold HalfEven Fix.roundDiv dist
  have h := Nat.div_add_mod n d
  have hlt := Nat.mod_lt n hd
  rw [Nat.mul_comm] at h
  generalize n / d = q at *
  generalize n % d = r at *
  simp only
  split
  · constructor <;> omega
  · have : (q + 1) * d = q * d + d := by rw [Nat.add_mul, Nat.one_mul]
    split
    · constructor <;> omega
    · split
      · constructor <;> omega
      · constructor <;> omega

theorem roundDiv_mul (m : Nat) {d : Nat} (hd : 0 < d) : Fix.roundDiv (m * d) d = m := by
  unfold Fix.roundDiv
  simp [Nat.mul_div_cancel _ hd, hd]

theorem parseU_decimal (p m : Nat) : parseU (decimal p m) = some (Fix.roundDiv (m * Fix.scale) (10 ^ p)) := by
  unfold parseU decimal
  by_cases hp : p = 0
  · subst hp
    simp only [if_true, List.append_nil, Nat.pow_zero, Nat.div_one]
    rw [splitOn_noSep ((natRepr_digits _).not_mem (by decide))]
    simp only [digitsVal_natRepr, Option.map_some]
    have := roundDiv_mul (m * Fix.scale) (d := 1) (by decide)
    rw [Nat.mul_one] at this
    rw [this]
  · simp only [hp, if_false]
    rw [splitOn_append_sep ((natRepr_digits _).not_mem (by decide)),
      splitOn_noSep ((pad_digits _ _).not_mem (by decide))]
    have hlt : m % 10 ^ p < 10 ^ p := Nat.mod_lt _ (Nat.pow_pos (by decide))
    simp only [digitsVal_natRepr, digitsVal_of_digits (pad_digits _ _) 0 false (Or.inl (pad_ne_nil _ _)),
      digitsNum_pad, pad_length (by omega : 1 ≤ p) hlt]
    have : m / 10 ^ p * 10 ^ p + m % 10 ^ p = m := by
      rw [Nat.mul_comm]; exact Nat.div_add_mod m (10 ^ p)
    rw [this]

theorem parse_decimal (b : Bool) (p m : Nat) :
    parse (signed b (decimal p m)) = some ⟨some (b, Fix.roundDiv (m * Fix.scale) (10 ^ p))⟩ := by
  obtain ⟨c, r, d, h, hd⟩ := Fix.dec_head (p := p) (m := m)
  rw [← decimal_eq] at h
  have hu := parseU_decimal p m
  unfold parse
  cases b with
  | true =>
    have : signed true (decimal p m) = '-' :: decimal p m := rfl
    rw [this, if_neg (by simp)]
    simp [hu]
  | false =>
    have : signed false (decimal p m) = decimal p m := rfl
    rw [this, if_neg]
    · rw [h] at hu ⊢
      have hc : c ≠ '-' := digit_ne hd (by decide)
      split
      · rename_i heq; simp at heq; exact absurd heq.1 hc
      · rw [hu]; simp
    · intro hh
      rw [h] at hh
      have : c = 'n' := by
        have := congrArg List.head? hh; simpa using this
      subst this
      have : digitVal 'n' = none := by decide
      rw [this] at hd; cases hd

instance : LawfulExt SFix where
  parse_repr := by
    rintro ⟨_ | ⟨b, n⟩⟩
    · decide
    · show parse (signed b (decimal 6 n)) = _
      rw [parse_decimal]
      have : Fix.scale = 10 ^ 6 := rfl
      rw [this, roundDiv_mul _ (by decide)]
  repr_plain := by
    rintro ⟨_ | ⟨b, n⟩⟩
    · show Plain (s% "nan"); decide
    · exact Fix.plain_sgn_dec b 6 n
  parse_int := by
    intro i
    show parse (intRepr i) = some ⟨some (decide (i < 0), i.natAbs * 1000000)⟩
    have : intRepr i = signed (decide (i < 0)) (decimal 0 i.natAbs) := by
      unfold intRepr signed decimal
      simp
    rw [this, parse_decimal]
    have := roundDiv_mul (i.natAbs * Fix.scale) (d := 1) (by decide)
    rw [Nat.mul_one] at this
    rw [Nat.pow_zero, this]; rfl
  fixed_plain := by
    rintro p ⟨_ | ⟨b, n⟩⟩
    · show Plain (s% "nan"); decide
    · exact Fix.plain_sgn_dec b p _
  fixed_parse := by
    rintro p ⟨_ | ⟨b, n⟩⟩
    · exact ⟨⟨none⟩, by show parse (s% "nan") = _; decide⟩
    · exact ⟨_, parse_decimal _ _ _⟩
  parse_nil := by show parse [] = none; decide
  beq_refl := by
    rintro ⟨_ | ⟨b, n⟩⟩
    · rfl
    · show (n == n && (b == b || n == 0)) = true; simp
  beq_symm := by
    rintro ⟨_ | ⟨a, m⟩⟩ ⟨_ | ⟨b, n⟩⟩ <;> try rfl
    show (m == n && (a == b || m == 0)) = (n == m && (b == a || n == 0))
    rw [Bool.eq_iff_iff]; simp only [Bool.and_eq_true, beq_iff_eq, Bool.or_eq_true]
    constructor
    · rintro ⟨rfl, h⟩; exact ⟨rfl, h.imp Eq.symm id⟩
    · rintro ⟨rfl, h⟩; exact ⟨rfl, h.imp Eq.symm id⟩
  beq_nan := by
    rintro ⟨_ | n⟩ g h
    · rfl
    · cases h
  arrow_iso := LawfulExt.arrow_iso (F := Fix)
  arrow_naive := LawfulExt.arrow_naive (F := Fix)
  arrow_valid := LawfulExt.arrow_valid (F := Fix)

/-- A rounded quotient is at least as near as any other number. -/
theorem nearest_roundDiv {q n d : Nat} (h : HalfEven q n d) (k : Nat) : dist n (q * d) ≤ dist n (k * d) := by
  unfold HalfEven at h
  unfold dist at h ⊢
  rcases Nat.lt_trichotomy k q with hk | hk | hk
  · have : k * d + d ≤ q * d := by
      have := Nat.mul_le_mul_right d (Nat.succ_le_of_lt hk)
      rw [Nat.succ_mul] at this; exact this
    omega
  · subst hk; omega
  · have : q * d + d ≤ k * d := by
      have := Nat.mul_le_mul_right d (Nat.succ_le_of_lt hk)
      rw [Nat.succ_mul] at this; exact this
    omega

instance : LawfulExact SFix where
  den_pos := by intro f; show 0 < Fix.scale; decide
  fixed_exact := by
    rintro p ⟨_ | ⟨b, n⟩⟩ hf
    · cases hf
    · exact ⟨_, halfEven_roundDiv (n * 10 ^ p) (d := Fix.scale) (by decide), rfl⟩
  parse_nearest := by
    intro b p m g hg hf
    have hg' : parse (signed b (decimal p m)) = some g := hg
    rw [parse_decimal] at hg'
    cases hg'
    refine ⟨rfl, ?_⟩
    rintro ⟨_ | ⟨b', k⟩⟩ hk
    · cases hk
    · show dist (Fix.roundDiv (m * Fix.scale) (10 ^ p) * 10 ^ p) (m * Fix.scale) * Fix.scale ≤
        dist (k * 10 ^ p) (m * Fix.scale) * Fix.scale
      have h := nearest_roundDiv (halfEven_roundDiv (m * Fix.scale) (d := 10 ^ p) (Nat.pow_pos (by decide))) k
      refine Nat.mul_le_mul_right _ ?_
      unfold dist at h ⊢
      omega
  fixed_nonfinite := by
    rintro p ⟨_ | ⟨b, n⟩⟩ hf
    · rfl
    · cases hf
  finite_number := by
    rintro ⟨_ | ⟨b, n⟩⟩ hf
    · cases hf
    · rfl
  parse_finite := by
    rintro p ⟨_ | ⟨b, n⟩⟩ g hf hg
    · cases hf
    · have hg' : parse (signed b (decimal p _)) = some g := hg
      rw [parse_decimal] at hg'
      cases hg'
      rfl

end SFix

end Verif
