import Verif.Spec.Integers
import Verif.Lemmas.Exact
import Verif.Lemmas.Iso

/-!
# C66: integers
-/

set_option linter.unusedSectionVars false
set_option linter.unusedSimpArgs false

namespace Verif

open Spec

theorem decDigits_iff {s : Str} : DecDigits s ↔ Digits s := by
  constructor
  · intro h c hc
    exact ⟨_, by unfold digitVal; rw [if_pos (h c hc)]⟩
  · intro h c hc
    obtain ⟨d, hd⟩ := h c hc
    unfold digitVal at hd
    split at hd
    · assumption
    · cases hd

theorem decimal_iff {c : Char} {d : Nat} : DecimalChar c d ↔ decimalVal c = some d := decimalVal_iff.symm

/-- What may follow a digit. -/
def Rest (s : Str) (ds : List Nat) : Prop := (s = [] ∧ ds = []) ∨ Grouped s ds ∨ ∃ t, s = '_' :: t ∧ Grouped t ds

theorem grouped_head {c : Char} {s : Str} {ds : List Nat} (h : Grouped (c :: s) ds) :
    ∃ d es, DecimalChar c d ∧ ds = d :: es ∧ Rest s es := by
  generalize hw : c :: s = w at h
  cases h with
  | one hne hd =>
    subst hw
    cases hd with
    | cons h1 h2 =>
      refine ⟨_, _, h1, rfl, ?_⟩
      by_cases h : s = []
      · subst h; cases h2; exact Or.inl ⟨rfl, rfl⟩
      · exact Or.inr (Or.inl (.one h h2))
  | more hne hd hg =>
    rename_i t u ds es
    cases hd with
    | nil => exact absurd rfl hne
    | cons h1 h2 =>
      rename_i x d t ds
      simp only [List.cons_append, List.cons.injEq] at hw
      obtain ⟨rfl, rfl⟩ := hw
      refine ⟨_, _, h1, rfl, ?_⟩
      by_cases h : t = []
      · subst h; cases h2; exact Or.inr (Or.inr ⟨u, rfl, hg⟩)
      · exact Or.inr (Or.inl (.more h h2 hg))

theorem grouped_cons {c : Char} {d : Nat} {s : Str} {ds : List Nat} (hc : DecimalChar c d) (h : Rest s ds) : Grouped (c :: s) (d :: ds) := by
  have h1 : Decimals [c] [d] := .cons hc .nil
  rcases h with ⟨rfl, rfl⟩ | h | ⟨t, rfl, h⟩
  · exact .one (by simp) h1
  · cases h with
    | one hne hd => exact .one (by simp) (.cons hc hd)
    | more hne hd hg => exact .more (t := c :: _) (ds := d :: _) (by simp) (.cons hc hd) hg
  · exact .more (t := [c]) (ds := [d]) (by simp) h1 h

theorem underscore_no_digit {d : Nat} : ¬ DecimalChar '_' d := by
  rw [decimal_iff, show decimalVal '_' = none by decide]
  exact fun h => by cases h

theorem grouped_nil {ds : List Nat} : ¬ Grouped [] ds := by
  intro h
  generalize hw : ([] : Str) = w at h
  cases h with
  | one hne => exact hne hw.symm
  | more hne => simp at hw

/-- The number with these digits after `n`. -/
def numberFrom (n : Nat) (ds : List Nat) : Nat := ds.foldl (fun n d => 10 * n + d) n

theorem decimalsVal_iff (s : Str) : ∀ (acc n : Nat),
    (decimalsVal acc false s = some n ↔ ∃ ds, Grouped s ds ∧ n = numberFrom acc ds) ∧
    (decimalsVal acc true s = some n ↔ ∃ ds, Rest s ds ∧ n = numberFrom acc ds) := by
  induction s with
  | nil =>
    intro acc n
    simp only [decimalsVal]
    refine ⟨⟨fun h => by simp at h, fun ⟨_, h, _⟩ => absurd h grouped_nil⟩, ?_⟩
    simp only [if_true, Option.some.injEq]
    constructor
    · rintro rfl; exact ⟨[], Or.inl ⟨rfl, rfl⟩, rfl⟩
    · rintro ⟨ds, ⟨_, rfl⟩ | h | ⟨_, h, _⟩, rfl⟩
      · rfl
      · exact absurd h grouped_nil
      · cases h
  | cons c s ih =>
    intro acc n
    by_cases hu : c = '_'
    · subst hu
      simp only [decimalsVal, if_true]
      refine ⟨⟨fun h => by simp at h, fun ⟨_, h, _⟩ => ?_⟩, ?_⟩
      · obtain ⟨d, _, hd, _⟩ := grouped_head h
        exact absurd hd underscore_no_digit
      rw [(ih acc n).1]
      constructor
      · rintro ⟨ds, h, hn⟩; exact ⟨ds, Or.inr (Or.inr ⟨s, rfl, h⟩), hn⟩
      · rintro ⟨ds, ⟨h, _⟩ | h | ⟨t, h, hg⟩, hn⟩
        · cases h
        · obtain ⟨d, _, hd, _⟩ := grouped_head h
          exact absurd hd underscore_no_digit
        · cases h; exact ⟨ds, hg, hn⟩
    · have key : ∀ b, (decimalsVal acc b (c :: s) = some n ↔ ∃ ds, Grouped (c :: s) ds ∧ n = numberFrom acc ds) := by
        intro b
        simp only [decimalsVal, hu, if_false]
        cases hd : decimalVal c with
        | none =>
          refine ⟨fun h => by simp at h, fun ⟨_, h, _⟩ => ?_⟩
          obtain ⟨d, _, hc, _⟩ := grouped_head h
          rw [decimal_iff, hd] at hc
          cases hc
        | some d =>
          simp only [(ih (acc * 10 + d) n).2]
          constructor
          · rintro ⟨ds, h, rfl⟩
            exact ⟨d :: ds, grouped_cons (decimal_iff.mpr hd) h, by simp [numberFrom, Nat.mul_comm]⟩
          · rintro ⟨ds, h, rfl⟩
            obtain ⟨d', es, hc, rfl, hr⟩ := grouped_head h
            rw [decimal_iff, hd, Option.some.injEq] at hc
            subst hc
            exact ⟨es, hr, by simp [numberFrom, Nat.mul_comm]⟩
      refine ⟨key false, (key true).trans ?_⟩
      constructor
      · rintro ⟨ds, h, hn⟩; exact ⟨ds, Or.inr (Or.inl h), hn⟩
      · rintro ⟨ds, ⟨h, _⟩ | h | ⟨t, h, _⟩, hn⟩
        · cases h
        · exact ⟨ds, h, hn⟩
        · cases h; exact absurd rfl hu

theorem decimals_noSpace {s : Str} {ds : List Nat} (h : Decimals s ds) : ∀ c ∈ s, isSpace c = false := by
  induction h with
  | nil => intro c hc; cases hc
  | cons h _ ih =>
    intro c hc
    rcases List.mem_cons.mp hc with rfl | hc
    · exact decimal_noSpace (decimal_iff.mp h)
    · exact ih c hc

theorem grouped_digits {s : Str} {ds : List Nat} (h : Grouped s ds) : s ≠ [] ∧ (∀ c ∈ s, isSpace c = false) := by
  induction h with
  | one hne hd => exact ⟨hne, decimals_noSpace hd⟩
  | more hne hd _ ih =>
    refine ⟨by simp, fun c hc => ?_⟩
    rcases List.mem_append.mp hc with h | h
    · exact decimals_noSpace hd c h
    · rcases List.mem_cons.mp h with rfl | h
      · decide
      · exact ih.2 c h

theorem decimalsVal_grouped {s : Str} {n : Nat} :
    decimalsVal 0 false s = some n ↔ ∃ ds, Grouped s ds ∧ n = decimalNumber ds := (decimalsVal_iff s 0 n).1

/-- The digits of ASCII are digits. -/
theorem decimals_of {s : Str} (h : DecDigits s) : Decimals s (s.map fun c => c.toNat - 48) := by
  induction s with
  | nil => exact .nil
  | cons c s ih =>
    refine .cons (decimal_iff.mpr (decimalVal_digit ?_)) (ih fun x hx => h x (by simp [hx]))
    unfold digitVal
    rw [if_pos (h c (by simp))]

theorem number_of (s : Str) : decimalNumber (s.map fun c => c.toNat - 48) = positional s := by
  unfold decimalNumber positional
  rw [List.foldl_map]
  congr 1
  funext a c
  rw [Nat.mul_comm]

theorem intBlank_iff {s : Str} : IntBlank s ↔ ∀ c ∈ s, isIntSpace c = true := by
  simp only [IntBlank, isIntSpace, Bool.and_eq_true, Bool.not_eq_true', Bool.and_eq_false_iff, decide_eq_false_iff_not]
  constructor <;> intro h c hc <;> refine ⟨(h c hc).1, ?_⟩ <;> have := (h c hc).2 <;> omega

/-- **C66.** Reading accepts exactly the integers in the notation of Python: white space,
a sign, digits of any script that may be grouped with underscores. -/
theorem C66_read (s : Str) (i : Int) : intParse s = some i ↔ IntText s i := by
  constructor
  · intro h
    obtain ⟨a, b, ha, hb, hs⟩ := intStrip_decomp s
    rw [← intBlank_iff] at ha hb
    unfold intParse at h
    split at h
    · rename_i ds hd
      simp only [Option.map_eq_some_iff] at h
      obtain ⟨n, hn, rfl⟩ := h
      obtain ⟨es, hg, rfl⟩ := decimalsVal_grouped.mp hn
      exact ⟨a, ['-'], ds, b, es, by rw [hd] at hs; exact hs, ha, hb, hg, Or.inr ⟨rfl, rfl⟩⟩
    · rename_i ds hd
      simp only [Option.map_eq_some_iff] at h
      obtain ⟨n, hn, rfl⟩ := h
      obtain ⟨es, hg, rfl⟩ := decimalsVal_grouped.mp hn
      exact ⟨a, ['+'], ds, b, es, by rw [hd] at hs; exact hs, ha, hb, hg, Or.inl ⟨Or.inr rfl, rfl⟩⟩
    · simp only [Option.map_eq_some_iff] at h
      obtain ⟨n, hn, rfl⟩ := h
      obtain ⟨es, hg, rfl⟩ := decimalsVal_grouped.mp hn
      exact ⟨a, [], intStrip s, b, es, hs, ha, hb, hg, Or.inl ⟨Or.inl rfl, rfl⟩⟩
  · rintro ⟨a, sign, t, b, ds, rfl, ha, hb, hg, hi⟩
    obtain ⟨hne, hsp⟩ := grouped_digits hg
    have hns : ∀ c ∈ sign ++ t, isSpace c = false := by
      intro c hc
      rcases List.mem_append.mp hc with h | h
      · rcases hi with ⟨rfl | rfl, _⟩ | ⟨rfl, _⟩
        · cases h
        · cases List.mem_singleton.mp h; decide
        · cases List.mem_singleton.mp h; decide
      · exact hsp c h
    have hstrip : intStrip (a ++ (sign ++ t) ++ b) = sign ++ t :=
      intStrip_surround (intBlank_iff.mp ha) (intBlank_iff.mp hb) (fun c hc => noIntSpace (hns c hc)) (by simp [hne])
    have hv : decimalsVal 0 false t = some (decimalNumber ds) := decimalsVal_grouped.mpr ⟨ds, hg, rfl⟩
    unfold intParse
    rw [hstrip]
    rcases hi with ⟨rfl | rfl, rfl⟩ | ⟨rfl, rfl⟩
    · cases t with
      | nil => exact absurd rfl hne
      | cons c t =>
        obtain ⟨d, _, hc, _⟩ := grouped_head hg
        have h1 : c ≠ '-' := decimal_ne (decimal_iff.mp hc) (by decide)
        have h2 : c ≠ '+' := decimal_ne (decimal_iff.mp hc) (by decide)
        simp only [List.nil_append]
        split
        · rename_i h; cases h; exact absurd rfl h1
        · rename_i h; cases h; exact absurd rfl h2
        · rw [hv]; rfl
    · simp only [List.cons_append, List.nil_append, hv]; rfl
    · simp only [List.cons_append, List.nil_append, hv]; rfl

/-- A number with digits of ASCII and the white space of XML. -/
theorem intText_ascii {a sign t b : Str} {i : Int} (ha : IntBlank a) (hb : IntBlank b) (hne : t ≠ []) (hd : DecDigits t)
    (hi : (sign = [] ∨ sign = ['+']) ∧ i = (positional t : Int) ∨ sign = ['-'] ∧ i = -(positional t : Int)) :
    IntText (a ++ (sign ++ t) ++ b) i :=
  ⟨a, sign, t, b, _, rfl, ha, hb, .one hne (decimals_of hd), by rw [number_of]; exact hi⟩

/-- Stripping changes nothing about a number. -/
theorem intParse_strip {s : Str} {i : Int} (h : intParse s = some i) : intParse (strip s) = some i := by
  obtain ⟨a, sign, t, b, ds, rfl, ha, hb, hg, hi⟩ := (C66_read s i).mp h
  obtain ⟨hne, hsp⟩ := grouped_digits hg
  have hns : ∀ c ∈ sign ++ t, isSpace c = false := by
    intro c hc
    rcases List.mem_append.mp hc with h | h
    · rcases hi with ⟨rfl | rfl, _⟩ | ⟨rfl, _⟩
      · cases h
      · cases List.mem_singleton.mp h; decide
      · cases List.mem_singleton.mp h; decide
    · exact hsp c h
  rw [strip_eq_of_surround (fun c hc => (ha c hc).1) (fun c hc => (hb c hc).1), strip_noSpace hns]
  exact (C66_read _ _).mpr ⟨[], sign, t, [], ds, by simp, (fun c hc => by cases hc), (fun c hc => by cases hc), hg, hi⟩

theorem natRepr_head (n : Nat) : (natRepr n).head? = some '0' → natRepr n = ['0'] := by
  induction n using Nat.strongRecOn with
  | ind n ih =>
    by_cases h : n < 10
    · rw [natRepr_lt h]
      intro h
      simp only [List.head?_cons, Option.some.injEq] at h
      rw [h]
    · rw [natRepr_ge (by omega)]
      intro h0
      cases hr : natRepr (n / 10) with
      | nil => exact absurd hr (natRepr_ne_nil _)
      | cons c r =>
        rw [hr] at h0
        have h1 : c = '0' := by simpa using h0
        have h2 := ih (n / 10) (by omega) (by rw [hr, h1]; rfl)
        have h3 := digitsNum_natRepr (n / 10)
        rw [h2] at h3
        have : n / 10 = 0 := by rw [← h3]; decide
        omega

theorem positional_append (s : Str) (c : Char) : positional (s ++ [c]) = positional s * 10 + (c.toNat - 48) := by
  unfold positional
  rw [List.foldl_append]
  rfl

/-- There is one numeral for each number. -/
theorem natRepr_unique (ds : Str) : ds ≠ [] → DecDigits ds → (ds.head? = some '0' → ds = ['0']) →
    ds = natRepr (positional ds) := by
  have key : ∀ r : Str, r ≠ [] → DecDigits r.reverse → (r.reverse.head? = some '0' → r.reverse = ['0']) →
      r.reverse = natRepr (positional r.reverse) := by
    intro r
    induction r with
    | nil => intro h; exact absurd rfl h
    | cons c r ih =>
      intro _ hd hz
      rw [List.reverse_cons] at hd hz ⊢
      have hc := hd c (by simp)
      have hc1 : 48 ≤ c.toNat := hc.1
      have hc2 : c.toNat ≤ 57 := hc.2
      have hchar : c = digitChar (c.toNat - 48) :=
        (digitVal_some (show digitVal c = some (c.toNat - 48) by unfold digitVal; rw [if_pos hc])).2
      cases r with
      | nil =>
        have hp : positional ([] ++ [c]) = c.toNat - 48 := by rw [positional_append]; simp [positional]
        rw [List.reverse_nil, hp, natRepr_lt (by omega), ← hchar]
        rfl
      | cons d r =>
        have hne : (d :: r).reverse ≠ [] := by simp
        have hz' : (d :: r).reverse.head? = some '0' → (d :: r).reverse = ['0'] := by
          intro h
          have : ((d :: r).reverse ++ [c]).head? = some '0' := by
            rw [List.head?_append, h]; rfl
          have := congrArg List.length (hz this)
          simp at this
        have hzero : positional (d :: r).reverse ≠ 0 := by
          intro h0
          have h1 := ih (by simp) (fun x hx => hd x (List.mem_append_left _ hx)) hz'
          rw [h0] at h1
          have : ((d :: r).reverse ++ [c]).head? = some '0' := by
            rw [h1]; rfl
          have := congrArg List.length (hz this)
          simp at this
        have h1 := ih (by simp) (fun x hx => hd x (List.mem_append_left _ hx)) hz'
        rw [positional_append, natRepr_ge (by omega)]
        have e1 : (positional (d :: r).reverse * 10 + (c.toNat - 48)) / 10 = positional (d :: r).reverse := by omega
        have e2 : (positional (d :: r).reverse * 10 + (c.toNat - 48)) % 10 = c.toNat - 48 := by omega
        rw [e1, e2, ← h1, ← hchar]
  intro h1 h2 h3
  have := key ds.reverse (by simpa using h1) (by simpa using h2) (by simpa using h3)
  simpa using this

/-- **C66, writing.** An integer is written as its numeral, and nothing else is that
numeral. -/
theorem C66_written (i : Int) (s : Str) : s = intRepr i ↔ Numeral i s := by
  constructor
  · rintro rfl
    refine ⟨natRepr i.natAbs, ?_, natRepr_ne_nil _, decDigits_iff.mpr (natRepr_digits _), ?_, natRepr_head _⟩
    · unfold intRepr; split <;> rfl
    · rw [positional_eq (natRepr_digits _), digitsNum_natRepr]
  · rintro ⟨ds, rfl, hne, hd, hp, hz⟩
    have := natRepr_unique ds hne hd hz
    rw [hp] at this
    unfold intRepr
    rw [this]
    split <;> rfl

/-- **C66, round trip.** What is written is read as the same number. -/
theorem C66_roundtrip (i : Int) (s : Str) (h : Numeral i s) : intParse s = some i := by
  rw [(C66_written i s).mpr h]
  exact intParse_intRepr i

example : IntText (s% " +1_000\n") 1000 := (C66_read _ _).mp (by decide)
/-- Arabic-Indic digits. -/
example : IntText [Char.ofNat 0x661, '_', Char.ofNat 0x660, '0'] 100 := (C66_read _ _).mp (by decide)
/-- A control character that `str.strip` removes. -/
example : intParse [Char.ofNat 0x1C, '1'] = none ∧ strip [Char.ofNat 0x1C, '1'] = ['1'] := by decide
example : ¬ ∃ i, IntText (s% "1__0") i := fun ⟨i, h⟩ => by
  have h := (C66_read _ _).mpr h
  rw [show intParse (s% "1__0") = none by decide] at h
  cases h
example : Numeral (-120) (s% "-120") := (C66_written _ _).mp (by decide)

end Verif
