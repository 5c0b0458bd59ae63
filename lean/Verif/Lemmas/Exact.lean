import Verif.Exact
import Verif.Lemmas.Coords
import Verif.Lemmas.Times
import Verif.Spec.Cycle

/-!
# Rounded decimals
-/

set_option linter.unusedSectionVars false
set_option linter.unusedSimpArgs false

namespace Verif

open Spec

theorem decDigits_of {s : Str} (h : Digits s) : DecDigits s := by
  intro c hc
  obtain ⟨d, hd⟩ := h c hc
  unfold digitVal at hd
  split at hd
  · assumption
  · cases hd

theorem positional_aux {s : Str} (h : Digits s) (a : Nat) :
    s.foldl (fun a c => a * 10 + (c.toNat - 48)) a = digitsNum a s := by
  induction s generalizing a with
  | nil => rfl
  | cons c s ih =>
    obtain ⟨d, hd⟩ := h c (by simp)
    have hd' : digitVal c = some (c.toNat - 48) := by
      unfold digitVal at hd ⊢
      split at hd
      · rename_i hc; rw [if_pos hc]
      · cases hd
    rw [List.foldl_cons, ih (fun x hx => h x (by simp [hx])), digitsNum, hd']
    rfl

theorem positional_eq {s : Str} (h : Digits s) : positional s = digitsNum 0 s := positional_aux h 0

theorem digitsNum_acc {s : Str} (a : Nat) : digitsNum a s = a * 10 ^ s.length + digitsNum 0 s := by
  induction s generalizing a with
  | nil => simp [digitsNum]
  | cons c s ih =>
    rw [digitsNum, digitsNum, ih, ih (0 * 10 + _), List.length_cons, Nat.pow_succ]
    have : a * (10 ^ s.length * 10) = a * 10 * 10 ^ s.length := by
      rw [Nat.mul_comm (10 ^ s.length) 10, ← Nat.mul_assoc]
    rw [this, Nat.add_mul, Nat.zero_mul, Nat.zero_add, Nat.add_assoc]

/-- The parts of a decimal number. -/
theorem decimal_parts (p m : Nat) : ∃ int frac : Str, decimal p m = int ++ (if p = 0 then [] else ['.']) ++ frac ∧
    int ≠ [] ∧ Digits int ∧ frac.length = p ∧ Digits frac ∧ positional (int ++ frac) = m := by
  by_cases hp : p = 0
  · subst hp
    refine ⟨natRepr m, [], ?_, natRepr_ne_nil _, natRepr_digits _, rfl, (fun c hc => absurd hc (by simp)), ?_⟩
    · simp [decimal]
    · rw [List.append_nil, positional_eq (natRepr_digits _), digitsNum_natRepr]
  · have hlt : m % 10 ^ p < 10 ^ p := Nat.mod_lt _ (Nat.pow_pos (by decide))
    have hlen := pad_length (by omega : 1 ≤ p) hlt
    refine ⟨natRepr (m / 10 ^ p), pad p (m % 10 ^ p), ?_, natRepr_ne_nil _, natRepr_digits _, hlen, pad_digits _ _, ?_⟩
    · simp [decimal, hp]
    · rw [positional_eq, digitsNum_append, digitsNum_natRepr, digitsNum_acc, hlen, digitsNum_pad]
      · rw [Nat.mul_comm]; exact Nat.div_add_mod m (10 ^ p)
      · intro c hc
        rcases List.mem_append.mp hc with h | h
        · exact natRepr_digits _ c h
        · exact pad_digits _ _ c h

/-- There is only one rounded value. -/
theorem halfEven_unique {m m' a b : Nat} (hb : 0 < b) (h : HalfEven m a b) (h' : HalfEven m' a b) : m = m' := by
  have key : ∀ {m m' : Nat}, HalfEven m a b → HalfEven m' a b → ¬ m < m' := by
    intro m m' h h' hlt
    unfold HalfEven dist at h h'
    have h1 : m * b + b ≤ m' * b := by
      have := Nat.mul_le_mul_right b (Nat.succ_le_of_lt hlt)
      rwa [Nat.succ_mul] at this
    by_cases h2 : m + 2 ≤ m'
    · have h3 : m * b + 2 * b ≤ m' * b := by
        have := Nat.mul_le_mul_right b h2
        rwa [Nat.add_mul] at this
      omega
    · have : m' = m + 1 := by omega
      subst this
      have e : (m + 1) * b = m * b + b := Nat.succ_mul _ _
      omega
  have := key h h'
  have := key h' h
  omega

variable {F : Type} [PyExt F] [ExactExt F] [LawfulExact F]

theorem fixed_approximates (p : Nat) (f : F) (hf : ExactExt.finite f = true) :
    Approximates p (ExactExt.neg f) (ExactExt.num f) (ExactExt.den f) (PyExt.fixed p f) := by
  obtain ⟨m, hm, he⟩ := LawfulExact.fixed_exact p f hf
  obtain ⟨int, frac, h1, h2, h3, h4, h5, h6⟩ := decimal_parts p m
  refine ⟨int, frac, ?_, h2, decDigits_of h3, h4, decDigits_of h5, ?_⟩
  · rw [he, h1]
    unfold signed
    split <;> simp
  · rw [h6]; exact hm.1

variable [LawfulExt F]

theorem roundTo_parse (p : Nat) (f : F) : PyExt.parse (PyExt.fixed p f) = some (roundTo (some p) f) := by
  obtain ⟨g, hg⟩ := LawfulExt.fixed_parse p f
  simp [roundTo, hg]

/-- Writing a rounded number gives the same text. -/
theorem fixed_roundTo (p : Nat) (f : F) : PyExt.fixed p (roundTo (some p) f) = PyExt.fixed p f := by
  have hparse := roundTo_parse p f
  cases hf : ExactExt.finite f with
  | false =>
    rw [LawfulExact.fixed_nonfinite p f hf, LawfulExt.parse_repr] at hparse
    rw [← Option.some.inj hparse]
  | true =>
    obtain ⟨m, hm, he⟩ := LawfulExact.fixed_exact p f hf
    have hg := LawfulExact.parse_finite p f _ hf hparse
    obtain ⟨m', hm', he'⟩ := LawfulExact.fixed_exact p _ hg
    rw [he] at hparse
    obtain ⟨hs, hn⟩ := LawfulExact.parse_nearest _ p m _ hparse hg
    rw [he', he, hs]
    refine congrArg (fun m => signed _ (decimal p m)) ?_
    have hd := LawfulExact.den_pos f
    have hd' := LawfulExact.den_pos (roundTo (some p) f)
    refine halfEven_unique hd' hm' ?_
    -- the rounded number is as near to `m / 10^p` as `f`
    have h1 := hn f hf
    unfold HalfEven at hm ⊢
    generalize dist (ExactExt.num (roundTo (some p) f) * 10 ^ p) (m * ExactExt.den (roundTo (some p) f)) = x at h1 ⊢
    generalize dist (ExactExt.num f * 10 ^ p) (m * ExactExt.den f) = y at h1 hm
    generalize ExactExt.den (roundTo (some p) f) = d' at h1 hd' ⊢
    generalize ExactExt.den f = d at h1 hm hd
    obtain ⟨h2, h3⟩ := hm
    have h4 : 2 * x * d ≤ d' * d := by
      calc 2 * x * d = 2 * (x * d) := Nat.mul_assoc _ _ _
        _ ≤ 2 * (y * d') := Nat.mul_le_mul_left _ h1
        _ = (2 * y) * d' := (Nat.mul_assoc _ _ _).symm
        _ ≤ d * d' := Nat.mul_le_mul_right _ h2
        _ = d' * d := Nat.mul_comm _ _
    refine ⟨Nat.le_of_mul_le_mul_right h4 hd, fun h5 => h3 ?_⟩
    have h6 : d * d' ≤ 2 * y * d' := by
      calc d * d' = d' * d := Nat.mul_comm _ _
        _ = 2 * x * d := by rw [h5]
        _ = 2 * (x * d) := Nat.mul_assoc _ _ _
        _ ≤ 2 * (y * d') := Nat.mul_le_mul_left _ h1
        _ = 2 * y * d' := (Nat.mul_assoc _ _ _).symm
    have := Nat.le_of_mul_le_mul_right h6 hd'
    omega

theorem roundTo_idem (p : Nat) (f : F) : roundTo (some p) (roundTo (some p) f) = roundTo (some p) f := by
  have h1 := roundTo_parse p f
  have h2 := roundTo_parse p (roundTo (some p) f)
  rw [fixed_roundTo, h1] at h2
  exact (Option.some.inj h2).symm

theorem roundTo_isNaN (p : Nat) (f : F) : PyExt.isNaN (roundTo (some p) f) = PyExt.isNaN f := by
  have hparse := roundTo_parse p f
  cases hf : ExactExt.finite f with
  | false =>
    rw [LawfulExact.fixed_nonfinite p f hf, LawfulExt.parse_repr] at hparse
    rw [← Option.some.inj hparse]
  | true =>
    rw [LawfulExact.finite_number f hf, LawfulExact.finite_number _ (LawfulExact.parse_finite p f _ hf hparse)]

end Verif
