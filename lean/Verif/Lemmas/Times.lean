import Verif.Times
import Verif.Lemmas.Py

/-!
# Lemmas about padded numbers and the date pattern
-/

set_option linter.unusedSectionVars false
set_option linter.unusedSimpArgs false

namespace Verif

theorem natReprAux_fuel {f g n : Nat} (hf : n < f) (hg : n < g) :
    natReprAux f n = natReprAux g n := by
  induction f generalizing g n with
  | zero => omega
  | succ f ih =>
    cases g with
    | zero => omega
    | succ g =>
      rw [natReprAux, natReprAux]
      split
      · rfl
      · rw [ih (g := g) (by omega) (by omega)]

theorem natRepr_lt {n : Nat} (h : n < 10) : natRepr n = [digitChar n] := by
  unfold natRepr; rw [natReprAux, if_pos h]

theorem natRepr_ge {n : Nat} (h : 10 ≤ n) : natRepr n = natRepr (n / 10) ++ [digitChar (n % 10)] := by
  have h1 : natRepr n = natReprAux n (n / 10) ++ [digitChar (n % 10)] := by
    show natReprAux (n + 1) n = _
    rw [natReprAux, if_neg (by omega)]
  rw [h1]
  have : natReprAux n (n / 10) = natRepr (n / 10) := natReprAux_fuel (by omega) (by omega)
  rw [this]

theorem natRepr_length_le {w n : Nat} (hw : 1 ≤ w) (h : n < 10 ^ w) : (natRepr n).length ≤ w := by
  induction w generalizing n with
  | zero => omega
  | succ w ih =>
    by_cases hn : n < 10
    · rw [natRepr_lt hn]; simp
    · rw [natRepr_ge (by omega), List.length_append]
      have : n / 10 < 10 ^ w := by
        rw [Nat.div_lt_iff_lt_mul (by decide)]; rwa [Nat.pow_succ] at h
      have hw' : 1 ≤ w := by
        cases w with
        | zero => simp at h; omega
        | succ w => omega
      have := ih hw' this
      simp; omega

theorem pad_length {w n : Nat} (hw : 1 ≤ w) (h : n < 10 ^ w) : (pad w n).length = w := by
  have := natRepr_length_le hw h
  simp [pad]; omega

theorem pad_succ {w : Nat} (hw : 1 ≤ w) (n : Nat) :
    pad (w + 1) n = pad w (n / 10) ++ [digitChar (n % 10)] := by
  unfold pad
  by_cases hn : n < 10
  · have h0 : n / 10 = 0 := by omega
    have h1 : n % 10 = n := by omega
    rw [h0, h1, natRepr_lt hn, natRepr_lt (by omega : 0 < 10)]
    have h2 : digitChar 0 = '0' := rfl
    simp only [List.length_cons, List.length_nil, Nat.zero_add, Nat.add_sub_cancel, h2]
    obtain ⟨v, rfl⟩ : ∃ v, w = v + 1 := ⟨w - 1, by omega⟩
    rw [Nat.add_sub_cancel, List.replicate_succ', List.append_assoc]
  · rw [natRepr_ge (by omega)]
    simp only [List.length_append, List.length_cons, List.length_nil, Nat.zero_add,
      Nat.add_sub_add_right, List.append_assoc]

theorem pad_digits (w n : Nat) : Digits (pad w n) := by
  intro c hc
  unfold pad at hc
  rcases List.mem_append.mp hc with h | h
  · rw [List.mem_replicate] at h; rw [h.2]; exact ⟨0, by decide⟩
  · exact natRepr_digits n c h

theorem pad_ne_nil (w n : Nat) : pad w n ≠ [] := by
  unfold pad; simp [natRepr_ne_nil]

theorem pad_two {n : Nat} (h : n < 100) : pad 2 n = [digitChar (n / 10), digitChar (n % 10)] := by
  rw [pad_succ (Nat.le_refl 1)]
  have h1 : n / 10 < 10 := by omega
  have : pad 1 (n / 10) = [digitChar (n / 10)] := by
    unfold pad; rw [natRepr_lt h1]; rfl
  rw [this]; rfl

theorem pad_four {n : Nat} : pad 4 n = pad 2 (n / 100) ++ pad 2 (n % 100) := by
  have e1 : n / 10 / 10 = n / 100 := by omega
  rw [pad_succ (by omega), pad_succ (by omega), e1, pad_two (n := n % 100) (by omega)]
  have e2 : n / 10 % 10 = n % 100 / 10 := by omega
  have e3 : n % 10 = n % 100 % 10 := by omega
  rw [e2, e3]; simp

theorem pad_six {n : Nat} : pad 6 n = pad 2 (n / 10000) ++ pad 2 (n / 100 % 100) ++ pad 2 (n % 100) := by
  have e1 : n / 10 / 10 = n / 100 := by omega
  rw [pad_succ (by omega), pad_succ (by omega), e1, pad_two (n := n % 100) (by omega), pad_four]
  have e2 : n / 10 % 10 = n % 100 / 10 := by omega
  have e3 : n % 10 = n % 100 % 10 := by omega
  have e4 : n / 100 / 100 = n / 10000 := by omega
  rw [e2, e3, e4]; simp

theorem digitsNum_replicate_zero (k : Nat) (s : Str) :
    digitsNum 0 (List.replicate k '0' ++ s) = digitsNum 0 s := by
  induction k with
  | zero => rfl
  | succ k ih =>
    rw [List.replicate_succ, List.cons_append, digitsNum]
    have : (digitVal '0').getD 0 = 0 := by decide
    rw [this]; exact ih

theorem digitsNum_pad (w n : Nat) : digitsNum 0 (pad w n) = n := by
  unfold pad; rw [digitsNum_replicate_zero, digitsNum_natRepr]

theorem natRepr_four {n : Nat} (h : 1000 ≤ n) : natRepr n = pad 4 n := by
  have h1 : natRepr n = natRepr (n / 1000) ++ [digitChar (n / 100 % 10)] ++ [digitChar (n / 10 % 10)]
      ++ [digitChar (n % 10)] := by
    rw [natRepr_ge (by omega), natRepr_ge (n := n / 10) (by omega), natRepr_ge (n := n / 10 / 10) (by omega)]
    have e1 : n / 10 / 10 / 10 = n / 1000 := by omega
    have e2 : n / 10 / 10 = n / 100 := by omega
    rw [e1, e2]
  have h2 : 4 ≤ (natRepr n).length := by
    rw [h1]
    have : 1 ≤ (natRepr (n / 1000)).length := by
      have := natRepr_ne_nil (n / 1000)
      cases hh : natRepr (n / 1000) with
      | nil => exact absurd hh this
      | cons a b => simp
    simp; omega
  have : 4 - (natRepr n).length = 0 := by omega
  simp only [pad, this, List.replicate_zero, List.nil_append]

theorem take2_pad {n : Nat} (h : n < 100) (r : Str) : take2 (pad 2 n ++ r) = some (n, r) := by
  rw [pad_two h]
  simp only [List.cons_append, List.nil_append, take2]
  rw [decimalVal_digit (digitChar_val (by omega)), decimalVal_digit (digitChar_val (by omega))]
  simp; omega

theorem take4_pad {n : Nat} (h : n < 10000) (r : Str) : take4 (pad 4 n ++ r) = some (n, r) := by
  rw [pad_four]
  unfold take4
  rw [List.append_assoc, take2_pad (by omega)]
  simp only
  rw [take2_pad (by omega)]
  simp; omega

theorem take2_none_head {c : Char} {s : Str} (h : decimalVal c = none) : take2 (c :: s) = none := by
  cases s with
  | nil => rfl
  | cons d r => simp [take2, h]

theorem opt2_pad {n : Nat} (h : n < 100) (r : Str) : opt2 (pad 2 n ++ r) = (some n, r) := by
  unfold opt2; rw [take2_pad h]

theorem dropDash_dash (r : Str) : dropDash ('-' :: r) = r := rfl

theorem dropDash_pad {w n : Nat} (r : Str) : dropDash (pad w n ++ r) = pad w n ++ r := by
  cases h : pad w n with
  | nil => exact absurd h (pad_ne_nil w n)
  | cons c cs =>
    have : c ≠ '-' := by
      obtain ⟨d, hd⟩ := pad_digits w n c (by simp [h]); exact digit_ne hd (by decide)
    show dropDash (c :: (cs ++ r)) = _
    unfold dropDash
    split
    · rename_i heq; simp at heq; exact absurd heq.1 this
    · rfl

theorem isoDate_digits (d : Date) : ∀ c ∈ isoDate d, isSpace c = false := by
  intro c hc
  simp only [isoDate, List.mem_append, List.mem_cons] at hc
  rcases hc with (h | h | h) | h | h
  · exact (pad_digits _ _).noSpace c h
  · subst h; decide
  · exact (pad_digits _ _).noSpace c h
  · subst h; decide
  · exact (pad_digits _ _).noSpace c h

theorem isoOff_noSpace (o : Option Int) : ∀ c ∈ isoOff o, isSpace c = false := by
  intro c hc
  cases o with
  | none => simp [isoOff] at hc
  | some o =>
    simp only [isoOff, List.mem_append, List.mem_cons] at hc
    rcases hc with (h | h) | h | h
    · subst h; split <;> decide
    · exact (pad_digits _ _).noSpace c h
    · subst h; decide
    · exact (pad_digits _ _).noSpace c h

theorem isoDateTime_noSpace (d : Date) (t : Time) : ∀ c ∈ isoDateTime d t, isSpace c = false := by
  intro c hc
  simp only [isoDateTime, List.mem_append, List.mem_cons] at hc
  rcases hc with ((((h | h | h) | h | h) | h | h) | h) | h
  · exact isoDate_digits d c h
  · subst h; decide
  · exact (pad_digits _ _).noSpace c h
  · subst h; decide
  · exact (pad_digits _ _).noSpace c h
  · subst h; decide
  · exact (pad_digits _ _).noSpace c h
  · split at h
    · simp at h
    · rcases List.mem_cons.mp h with h | h
      · subst h; decide
      · exact (pad_digits _ _).noSpace c h
  · exact isoOff_noSpace _ c h

theorem toStr_noSpace (k : KmlDateTime) : ∀ c ∈ k.toStr, isSpace c = false := by
  intro c hc
  unfold KmlDateTime.toStr at hc
  split at hc
  · exact (natRepr_digits _).noSpace c hc
  · rcases List.mem_append.mp hc with h | h
    · exact (natRepr_digits _).noSpace c h
    · rcases List.mem_cons.mp h with h | h
      · subst h; decide
      · exact (pad_digits _ _).noSpace c h
  · exact isoDate_digits _ c hc
  · unfold Moment.iso at hc
    split at hc
    · exact isoDate_digits _ c hc
    · exact isoDateTime_noSpace _ _ c hc

theorem toStr_ne_nil (k : KmlDateTime) : k.toStr ≠ [] := by
  unfold KmlDateTime.toStr
  split
  · exact natRepr_ne_nil _
  · simp
  · simp [isoDate]
  · unfold Moment.iso; split
    · simp [isoDate]
    · simp [isoDateTime]

/-- A date-time text is not a date text. -/
theorem ymdMatch_isoDateTime {d : Date} (hd : d.Valid) (t : Time) :
    ymdMatch (isoDateTime d t) = none := by
  obtain ⟨h1, h2, h3, h4, h5, h6⟩ := hd
  have h7 : d.d < 100 := by
    have : daysInMonth d.y d.m ≤ 31 := by unfold daysInMonth; split <;> (try split) <;> omega
    omega
  unfold isoDateTime isoDate ymdMatch
  simp only [List.append_assoc, List.cons_append, take4_pad (show d.y < 10000 by omega),
    dropDash_dash, opt2_pad (show d.m < 100 by omega), opt2_pad h7]
  simp

end Verif
