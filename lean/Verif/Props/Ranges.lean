import Verif.Spec.Resaved
import Verif.Props.Simple

set_option linter.unusedSectionVars false
set_option linter.unusedSimpArgs false

/-!
# The law `KeepsRanges` holds of numbers with six decimals
-/

namespace Verif

open Spec

/-! ## A decimal number is read in one way -/

theorem span_unique {p : Char → Prop} {a b a' b' : Str} (h : a ++ b = a' ++ b') (ha : ∀ c ∈ a, p c) (ha' : ∀ c ∈ a', p c)
    (hb : ∀ c r, b = c :: r → ¬ p c) (hb' : ∀ c r, b' = c :: r → ¬ p c) : a = a' ∧ b = b' := by
  induction a generalizing a' with
  | nil =>
    cases a' with
    | nil => exact ⟨rfl, h⟩
    | cons c r => exact absurd (ha' c (by simp)) (hb c (r ++ b') (by simpa using h))
  | cons c r ih =>
    cases a' with
    | nil => exact absurd (ha c (by simp)) (hb' c (r ++ b) (by simpa using h.symm))
    | cons c' r' =>
      simp only [List.cons_append, List.cons.injEq] at h
      obtain ⟨rfl, h⟩ := h
      obtain ⟨h1, h2⟩ := ih h (fun c hc => ha c (by simp [hc])) (fun c hc => ha' c (by simp [hc]))
      exact ⟨by rw [h1], h2⟩

theorem sign_unique {neg neg' : Bool} {sg sg' r r' : Str} (h : sg ++ r = sg' ++ r') (hs : SignText neg sg) (hs' : SignText neg' sg')
    (hr : ∀ c t, r = c :: t → c ≠ '-' ∧ c ≠ '+') (hr' : ∀ c t, r' = c :: t → c ≠ '-' ∧ c ≠ '+') : neg = neg' ∧ r = r' := by
  have key : ∀ {neg : Bool} {sg : Str}, SignText neg sg → ∀ c ∈ sg, c = '-' ∨ c = '+' := by
    intro neg sg h c hc
    cases neg
    · rcases h with rfl | rfl
      · cases hc
      · simp at hc; exact .inr hc
    · cases h; simp at hc; exact .inl hc
  obtain ⟨h1, h2⟩ := span_unique (p := fun c => c = '-' ∨ c = '+') h (key hs) (key hs')
    (fun c t hc h => h.elim (hr c t hc).1 (hr c t hc).2) (fun c t hc h => h.elim (hr' c t hc).1 (hr' c t hc).2)
  refine ⟨?_, h2⟩
  subst h1
  cases neg <;> cases neg' <;> first | rfl | (simp only [SignText] at hs hs'; subst_vars; simp_all)

theorem digit_not {c : Char} (h : '0' ≤ c ∧ c ≤ '9') : c ≠ '-' ∧ c ≠ '+' ∧ c ≠ '.' ∧ c ≠ 'e' ∧ c ≠ 'E' ∧ c ≠ '_' := by
  refine ⟨?_, ?_, ?_, ?_, ?_, ?_⟩ <;> (rintro rfl; revert h; decide)

theorem integerText_unique {i j : Int} {s : Str} (hi : IntegerText i s) (hj : IntegerText j s) : i = j := by
  obtain ⟨n1, sg1, ds1, rfl, hs1, -, hd1, rfl⟩ := hi
  obtain ⟨n2, sg2, ds2, h, hs2, -, hd2, rfl⟩ := hj
  have aux : ∀ {ds : Str}, DecDigits ds → ∀ c t, ds = c :: t → c ≠ '-' ∧ c ≠ '+' := by
    rintro ds hd c t rfl
    exact ⟨(digit_not (hd c (by simp))).1, (digit_not (hd c (by simp))).2.1⟩
  obtain ⟨rfl, rfl⟩ := sign_unique h hs1 hs2 (aux hd1) (aux hd2)
  rfl

theorem mantissa_chars {m k : Nat} {s : Str} (h : MantissaText m k s) : ∀ c ∈ s, ('0' ≤ c ∧ c ≤ '9') ∨ c = '.' := by
  obtain ⟨a, b, ha, hb, -, -, -, rfl | ⟨rfl, rfl⟩⟩ := h
  · intro c hc
    rcases List.mem_append.mp hc with hc | hc
    · exact .inl (ha c hc)
    · rcases List.mem_cons.mp hc with rfl | hc
      · exact .inr rfl
      · exact .inl (hb c hc)
  · exact fun c hc => .inl (ha c hc)

theorem mantissa_ne {m k : Nat} {s : Str} (h : MantissaText m k s) : s ≠ [] := by
  obtain ⟨a, b, ha, hb, hne, -, -, rfl | ⟨rfl, rfl⟩⟩ := h
  · simp
  · simpa using hne

theorem mantissa_unique {m k m' k' : Nat} {s : Str} (h : MantissaText m k s) (h' : MantissaText m' k' s) : m = m' ∧ k = k' := by
  obtain ⟨a, b, ha, hb, -, rfl, rfl, hs⟩ := h
  obtain ⟨a', b', ha', hb', -, rfl, rfl, hs'⟩ := h'
  have hd : ¬ ('0' ≤ '.' ∧ '.' ≤ '9') := by decide
  have key : ∀ {a b a' b' : Str}, DecDigits a → DecDigits a' → a ++ '.' :: b = a' ++ '.' :: b' → a = a' ∧ b = b' := by
    intro a b a' b' ha ha' h
    obtain ⟨h1, h2⟩ := span_unique (p := fun c => '0' ≤ c ∧ c ≤ '9') h ha ha'
      (fun c r hc => by cases hc; exact hd) (fun c r hc => by cases hc; exact hd)
    exact ⟨h1, by simpa using h2⟩
  rcases hs with rfl | ⟨rfl, rfl⟩ <;> rcases hs' with h | ⟨rfl, h⟩
  · obtain ⟨rfl, rfl⟩ := key ha ha' h
    exact ⟨rfl, rfl⟩
  · exact absurd (ha' '.' (by rw [← h]; simp)) hd
  · exact absurd (ha '.' (by rw [h]; simp)) hd
  · subst h; exact ⟨rfl, rfl⟩

/-- A decimal number is read in one way. -/
theorem decimalText_unique {n1 n2 : Bool} {m1 k1 m2 k2 : Nat} {e1 e2 : Int} {s : Str} (h1 : DecimalText n1 m1 k1 e1 s)
    (h2 : DecimalText n2 m2 k2 e2 s) : n1 = n2 ∧ m1 = m2 ∧ k1 = k2 ∧ e1 = e2 := by
  obtain ⟨sg1, mt1, ex1, rfl, hs1, hm1, hx1⟩ := h1
  obtain ⟨sg2, mt2, ex2, h, hs2, hm2, hx2⟩ := h2
  rw [List.append_assoc, List.append_assoc] at h
  have aux : ∀ {m k : Nat} {mt ex : Str}, MantissaText m k mt → ∀ c t, mt ++ ex = c :: t → c ≠ '-' ∧ c ≠ '+' := by
    intro m k mt ex hm c t hc
    have hne := mantissa_ne hm
    cases mt with
    | nil => exact absurd rfl hne
    | cons x r =>
      simp only [List.cons_append, List.cons.injEq] at hc
      obtain ⟨rfl, -⟩ := hc
      rcases mantissa_chars hm x (by simp) with h | rfl
      · exact ⟨(digit_not h).1, (digit_not h).2.1⟩
      · decide
  obtain ⟨rfl, h⟩ := sign_unique h hs1 hs2 (aux hm1) (aux hm2)
  have auy : ∀ {e : Int} {ex : Str}, ExponentText e ex → ∀ c r, ex = c :: r → ¬ (('0' ≤ c ∧ c ≤ '9') ∨ c = '.') := by
    rintro e ex (⟨rfl, -⟩ | ⟨c, t, hc, rfl, -⟩) x r hx
    · cases hx
    · cases hx; rcases hc with rfl | rfl <;> decide
  obtain ⟨rfl, rfl⟩ := span_unique h (mantissa_chars hm1) (mantissa_chars hm2) (auy hx1) (auy hx2)
  obtain ⟨rfl, rfl⟩ := mantissa_unique hm1 hm2
  refine ⟨rfl, rfl, rfl, ?_⟩
  rcases hx1 with ⟨rfl, rfl⟩ | ⟨c, t, -, rfl, hi⟩ <;> rcases hx2 with ⟨h, rfl⟩ | ⟨c', t', -, h, hj⟩
  · rfl
  · cases h
  · cases h
  · cases h; exact integerText_unique hi hj

/-! ## How `Fix` reads it -/

theorem digitsVal_chars {s : Str} : ∀ {a n : Nat} {b : Bool}, digitsVal a b s = some n → ∀ c ∈ s, ('0' ≤ c ∧ c ≤ '9') ∨ c = '_' := by
  induction s with
  | nil => intro a n b _ c hc; cases hc
  | cons x r ih =>
    intro a n b h c hc
    simp only [digitsVal] at h
    by_cases hx : x = '_'
    · rw [if_pos hx] at h
      rcases List.mem_cons.mp hc with rfl | hc
      · exact .inr hx
      · split at h
        · exact ih h c hc
        · cases h
    · rw [if_neg hx] at h
      split at h
      · rename_i d hd
        rcases List.mem_cons.mp hc with rfl | hc
        · left
          unfold digitVal at hd
          split at hd
          · assumption
          · cases hd
        · exact ih h c hc
      · cases h

theorem splitOn_mem {sep : Char} {s : Str} {c : Char} (hc : c ∈ s) : c = sep ∨ ∃ p ∈ splitOn sep s, c ∈ p := by
  induction s with
  | nil => cases hc
  | cons x r ih =>
    simp only [splitOn]
    by_cases hx : x = sep
    · rw [if_pos hx]
      rcases List.mem_cons.mp hc with rfl | hc
      · exact .inl hx
      · rcases ih hc with h | ⟨p, hp, h⟩
        · exact .inl h
        · exact .inr ⟨p, by simp [hp], h⟩
    · rw [if_neg hx]
      cases hr : splitOn sep r with
      | nil => exact absurd hr (splitOn_ne_nil sep r)
      | cons q qs =>
        rw [hr] at ih
        rcases List.mem_cons.mp hc with rfl | hc
        · exact .inr ⟨c :: q, by simp, by simp⟩
        · rcases ih hc with h | ⟨p, hp, h⟩
          · exact .inl h
          · rcases List.mem_cons.mp hp with rfl | hp
            · exact .inr ⟨x :: p, by simp, by simp [h]⟩
            · exact .inr ⟨p, by simp [hp], h⟩

theorem parseU_chars {s : Str} {n : Nat} (h : Fix.parseU s = some n) : ∀ c ∈ s, (('0' ≤ c ∧ c ≤ '9') ∨ c = '_') ∨ c = '.' := by
  intro c hc
  rcases splitOn_mem (sep := '.') hc with rfl | ⟨p, hp, hc⟩
  · exact .inr rfl
  · left
    unfold Fix.parseU at h
    split at h
    · rename_i a ha
      rw [ha] at hp
      simp only [List.mem_singleton] at hp
      subst hp
      cases hd : digitsVal 0 false p with
      | none => rw [hd] at h; cases h
      | some x => exact digitsVal_chars hd c hc
    · rename_i a b ha
      rw [ha] at hp
      split at h
      · rename_i x y hx hy
        simp only [List.mem_cons, List.not_mem_nil, or_false] at hp
        rcases hp with rfl | rfl
        · exact digitsVal_chars hx c hc
        · exact digitsVal_chars hy c hc
      · cases h
    · cases h

theorem parseU_mantissa {m k : Nat} {s : Str} {n : Nat} (hm : MantissaText m k s) (h : Fix.parseU s = some n) :
    n = m * 1000000 / 10 ^ k := by
  obtain ⟨a, b, ha, hb, hne, rfl, rfl, hs⟩ := hm
  have hd : '.' ∉ a := fun hc => absurd (ha _ hc) (by decide)
  have hd' : '.' ∉ b := fun hc => absurd (hb _ hc) (by decide)
  have ha' := decDigits_iff.mp ha
  have hb' := decDigits_iff.mp hb
  have hab : positional (a ++ b) = digitsNum 0 (a ++ b) := positional_eq (by
    intro c hc
    rcases List.mem_append.mp hc with hc | hc
    · exact ha' c hc
    · exact hb' c hc)
  have hap : ∀ x, digitsNum x (a ++ b) = digitsNum (digitsNum x a) b := by
    clear hs hne hab hd hd' ha ha'
    induction a with
    | nil => intro x; rfl
    | cons c r ih => intro x; simp only [List.cons_append, digitsNum]; exact ih _
  rw [hab, hap, digitsNum_acc]
  rcases hs with rfl | ⟨rfl, rfl⟩
  · unfold Fix.parseU at h
    rw [splitOn_append_sep hd, splitOn_noSep hd'] at h
    simp only at h
    split at h
    · rename_i x y hx hy
      have hane : a ≠ [] := by rintro rfl; simp [digitsVal] at hx
      have hbne : b ≠ [] := by rintro rfl; simp [digitsVal] at hy
      rw [digitsVal_of_digits ha' 0 false (.inl hane)] at hx
      rw [digitsVal_of_digits hb' 0 false (.inl hbne)] at hy
      cases hx; cases hy; cases h
      rfl
    · cases h
  · unfold Fix.parseU at h
    rw [splitOn_noSep hd] at h
    simp only at h
    have hane : s ≠ [] := by simpa using hne
    rw [digitsVal_of_digits ha' 0 false (.inl hane)] at h
    cases h
    simp [digitsNum, Fix.scale]

theorem not_space_of {c : Char} (h : (('0' ≤ c ∧ c ≤ '9') ∨ c = '_') ∨ c = '.') : c ∉ xmlSpaces ∧ c ≠ '+' ∧ c ≠ 'e' ∧ c ≠ 'E' := by
  have key : ∀ d ∈ ['+', 'e', 'E', ' ', '\t', '\n', '\r'], ¬ ((('0' ≤ d ∧ d ≤ '9') ∨ d = '_') ∨ d = '.') := by decide
  refine ⟨fun hc => ?_, ?_, ?_, ?_⟩
  · refine key c ?_ h
    simp only [xmlSpaces, List.mem_cons, List.not_mem_nil, or_false] at hc ⊢
    rcases hc with h | h | h | h <;> simp [h]
  all_goals (rintro rfl; exact key _ (by simp) h)

/-- The number that is read from `± m / 10^k · 10^e`. -/
def sixDecimals (neg : Bool) (m k : Nat) (e : Int) : Int :=
  let n : Int := (m * 10 ^ e.toNat * 1000000 / 10 ^ (k + (-e).toNat) : Nat)
  if neg then -n else n

theorem fix_parse {neg : Bool} {m k : Nat} {e : Int} {s : Str} {f : Fix} (hs : Padded (DecimalText neg m k e) s)
    (h : Fix.parse s = some f) : f = ⟨some (sixDecimals neg m k e)⟩ := by
  have hnan : s ≠ s% "nan" := by
    rintro rfl
    obtain ⟨w, u, w', hs, hw, sg, mt, ex, rfl, -, hm, -⟩ := hs
    have hne := mantissa_ne hm
    cases mt with
    | nil => exact hne rfl
    | cons c r =>
      have hc : c ∈ s% "nan" := by rw [hs]; simp
      have key : ∀ c ∈ s% "nan", ¬ (('0' ≤ c ∧ c ≤ '9') ∨ c = '.') := by decide
      exact key c hc (mantissa_chars hm c (by simp))
  obtain ⟨w, u, w', rfl, hw, sg, mt, ex, rfl, hsg, hm, hex⟩ := hs
  -- the unsigned part
  have main : ∀ n, Fix.parseU (mt ++ ex ++ w') = some n → n = m * 1000000 / 10 ^ k ∧ e = 0 := by
    intro n hn
    have hch := parseU_chars hn
    have hw' : w' = [] := by
      cases w' with
      | nil => rfl
      | cons c r => exact absurd (hw c (by simp)) (not_space_of (hch c (by simp))).1
    subst hw'
    rcases hex with ⟨rfl, rfl⟩ | ⟨c, t, hc, rfl, -⟩
    · simp only [List.append_nil] at hn
      exact ⟨parseU_mantissa hm hn, rfl⟩
    · have := not_space_of (hch c (by simp))
      rcases hc with rfl | rfl
      · exact absurd rfl this.2.2.1
      · exact absurd rfl this.2.2.2
  have hval : ∀ n, n = m * 1000000 / 10 ^ k ∧ e = 0 → (if neg then -(Int.ofNat n) else Int.ofNat n) = sixDecimals neg m k e := by
    rintro n ⟨rfl, rfl⟩
    simp [sixDecimals]
  have bad : ∀ {r : Str}, (∃ c ∈ r, c ∈ xmlSpaces ∨ c = '+') → Fix.parseU r = none := by
    rintro r ⟨c, hc, h⟩
    cases hp : Fix.parseU r with
    | none => rfl
    | some n =>
      have := not_space_of (parseU_chars hp c hc)
      rcases h with h | h
      · exact absurd h this.1
      · exact absurd h this.2.1
  unfold Fix.parse at h
  rw [if_neg hnan] at h
  cases w with
  | cons c r =>
    have hc := hw c (by simp)
    have hcm : c ≠ '-' := by rintro rfl; revert hc; decide
    split at h
    · rename_i r' heq
      simp only [List.cons_append, List.cons.injEq] at heq
      exact absurd heq.1 hcm
    · rw [bad ⟨c, by simp, .inl hc⟩] at h; cases h
  | nil =>
    simp only [List.nil_append] at h
    cases neg with
    | true =>
      cases hsg
      simp only [List.cons_append, List.nil_append] at h
      cases hp : Fix.parseU (mt ++ ex ++ w') with
      | none => rw [hp] at h; cases h
      | some n =>
        rw [hp] at h
        simp only [Option.map_some, Option.some.injEq] at h
        rw [← h, ← hval n (main n hp)]
        rfl
    | false =>
      rcases hsg with rfl | rfl
      · simp only [List.nil_append] at h
        have hne := mantissa_ne hm
        cases mt with
        | nil => exact absurd rfl hne
        | cons c r =>
          have hcm : c ≠ '-' := by
            rcases mantissa_chars hm c (by simp) with hc | rfl
            · exact (digit_not hc).1
            · decide
          split at h
          · rename_i r' heq
            simp only [List.cons_append, List.cons.injEq] at heq
            exact absurd heq.1 hcm
          · cases hp : Fix.parseU (c :: r ++ ex ++ w') with
            | none => rw [hp] at h; cases h
            | some n =>
              rw [hp] at h
              simp only [Option.map_some, Option.some.injEq] at h
              rw [← h, ← hval n (main n hp)]
              rfl
      · simp only [List.cons_append, List.nil_append] at h
        split at h
        · rename_i r' heq
          simp at heq
        · rw [bad (r := '+' :: (mt ++ ex ++ w')) ⟨'+', List.mem_cons_self, .inr rfl⟩] at h
          cases h

/-! ## Ranges -/

theorem nat_scaled {X D n : Nat} (hD : 0 < D) (hn : n = X * 1000000 / D) {lo : Int} :
    (lo * D ≤ X → lo * 1000000 ≤ n) ∧ ((X : Int) ≤ lo * D → (n : Int) ≤ lo * 1000000) := by
  subst hn
  rw [Int.natCast_ediv, Int.natCast_mul]
  have hD' : (0 : Int) < D := by omega
  constructor
  · intro h
    refine (Int.le_ediv_iff_mul_le hD').mpr ?_
    have : lo * 1000000 * D = lo * D * 1000000 := by rw [Int.mul_right_comm]
    rw [this]
    exact Int.mul_le_mul_of_nonneg_right h (by decide)
  · intro h
    refine Int.ediv_le_of_le_mul hD' ?_
    have : lo * 1000000 * D = lo * D * 1000000 := by rw [Int.mul_right_comm]
    rw [this]
    exact Int.mul_le_mul_of_nonneg_right h (by decide)

theorem sixDecimals_between {lo hi : Int} {neg : Bool} {m k : Nat} {e : Int} (h : Between lo hi neg m k e) :
    lo * 1000000 ≤ sixDecimals neg m k e ∧ sixDecimals neg m k e ≤ hi * 1000000 := by
  unfold sixDecimals
  generalize hn : m * 10 ^ e.toNat * 1000000 / 10 ^ (k + (-e).toNat) = n
  have hD : 0 < 10 ^ (k + (-e).toNat) := Nat.pow_pos (by decide)
  simp only [Between] at h
  have hc : ((10 : Int) ^ (k + (-e).toNat)) = ((10 ^ (k + (-e).toNat) : Nat) : Int) := by simp
  have hx : (m : Int) * 10 ^ e.toNat = ((m * 10 ^ e.toNat : Nat) : Int) := by simp
  rw [hc] at h
  have key := fun lo => nat_scaled (X := m * 10 ^ e.toNat) hD hn.symm (lo := lo)
  cases neg with
  | false =>
    simp only [Bool.false_eq_true, if_false] at h ⊢
    rw [hx] at h
    exact ⟨(key lo).1 h.1, (key hi).2 h.2⟩
  | true =>
    simp only [if_true] at h ⊢
    rw [Int.neg_mul, hx] at h
    have h1 := (key (-lo)).2 (by rw [Int.neg_mul]; omega)
    have h2 := (key (-hi)).1 (by rw [Int.neg_mul]; omega)
    constructor <;> omega

theorem repr_sixDecimals {lo hi : Int} {neg : Bool} {m k : Nat} {e : Int} (h : Between lo hi neg m k e) :
    RangeText lo hi (Fix.repr ⟨some (sixDecimals neg m k e)⟩) := by
  obtain ⟨h1, h2⟩ := sixDecimals_between h
  refine ⟨_, _, _, _, decimalText_fix _, ?_⟩
  simp only [Between, Int.toNat_zero, Int.neg_zero, Nat.add_zero, Int.pow_zero, Int.mul_one, decide_eq_true_eq]
  have hp : (10 : Int) ^ 6 = 1000000 := by decide
  rw [hp]
  split <;> omega

theorem padded_range {lo hi : Int} {s : Str} (h : Padded (RangeText lo hi) s) : ∃ neg m k e,
    Padded (DecimalText neg m k e) s ∧ Between lo hi neg m k e := by
  obtain ⟨w, u, w', hs, hw, neg, m, k, e, hd, hb⟩ := h
  exact ⟨neg, m, k, e, ⟨w, u, w', hs, hw, hd⟩, hb⟩

instance : KeepsRanges Fix where
  repr_between lo hi s f _ _ hs hf := by
    obtain ⟨neg, m, k, e, hd, hb⟩ := padded_range hs
    rw [fix_parse hd hf]
    exact repr_sixDecimals hb

instance : KeepsRanges XFix where
  repr_between lo hi s f _ _ hs hf := by
    obtain ⟨neg, m, k, e, hd, hb⟩ := padded_range hs
    have hf : XFix.parse s = some f := hf
    show RangeText lo hi (Fix.repr f.val)
    unfold XFix.parse at hf
    split at hf
    · rename_i g hg
      cases hf
      rw [fix_parse hd hg]
      exact repr_sixDecimals hb
    · have hex : ∃ x : Bool × Nat × Nat × Int, Padded (DecimalText x.1 x.2.1 x.2.2.1 x.2.2.2) s := ⟨(neg, m, k, e), hd⟩
      rw [dif_pos hex] at hf
      have hspec := Classical.choose_spec hex
      generalize Classical.choose hex = x at hf hspec
      have noSp : ∀ {neg m k e} u, DecimalText neg m k e u → ∀ c ∈ u, isSpace c = false :=
        fun u hu => doubleText_noSpace (.inr ⟨_, _, _, _, hu⟩)
      obtain ⟨h1, h2, h3, h4⟩ := decimalText_unique (strip_padded hspec noSp) (strip_padded hd noSp)
      cases hf
      rw [← h1, ← h2, ← h3, ← h4] at hb
      exact repr_sixDecimals hb

end Verif
