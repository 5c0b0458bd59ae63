import Verif.Spec.Simple
import Verif.Lemmas.Exact
import Verif.Lemmas.Iso

/-!
# What Python writes, as texts of the simple types
-/

set_option linter.unusedSectionVars false
set_option linter.unusedSimpArgs false

namespace Verif

open Spec

theorem padded_of {R : Str → Prop} {s : Str} (h : R s) : Padded R s :=
  ⟨[], s, [], by simp, by simp, h⟩

theorem positional_natRepr (n : Nat) : positional (natRepr n) = n := by
  rw [positional_eq (natRepr_digits n), digitsNum_natRepr]

/-- `str(i)` is the notation of the integer. -/
theorem integerText_intRepr (i : Int) : IntegerText i (intRepr i) := by
  have hd : DecDigits (natRepr i.natAbs) := decDigits_of (natRepr_digits _)
  by_cases h : i < 0
  · refine ⟨true, ['-'], natRepr i.natAbs, by simp [intRepr, h], rfl, natRepr_ne_nil _, hd, ?_⟩
    rw [positional_natRepr]; simp; omega
  · refine ⟨false, [], natRepr i.natAbs, by simp [intRepr, h], .inl rfl, natRepr_ne_nil _, hd, ?_⟩
    rw [positional_natRepr]; simp; omega

/-- `str(i)` is a decimal number. -/
theorem decimalText_intRepr (i : Int) : DecimalText (decide (i < 0)) i.natAbs 0 0 (intRepr i) := by
  have hm : MantissaText i.natAbs 0 (natRepr i.natAbs) :=
    ⟨natRepr i.natAbs, [], decDigits_of (natRepr_digits _), (fun c hc => absurd hc (by simp)), by simp [natRepr_ne_nil],
      by rw [List.append_nil, positional_natRepr], rfl, .inr ⟨rfl, rfl⟩⟩
  by_cases h : i < 0
  · exact ⟨['-'], _, [], by simp [intRepr, h], by simp [h, SignText], hm, .inl ⟨rfl, rfl⟩⟩
  · exact ⟨[], _, [], by simp [intRepr, h], by simp [h, SignText], hm, .inl ⟨rfl, rfl⟩⟩

theorem doubleText_intRepr (i : Int) : DoubleText (intRepr i) := .inr ⟨_, _, _, _, decimalText_intRepr i⟩

theorem rangeText_intRepr {lo hi i : Int} (h : lo ≤ i ∧ i ≤ hi) : RangeText lo hi (intRepr i) := by
  refine ⟨_, _, _, _, decimalText_intRepr i, ?_⟩
  simp only [Between, Int.toNat_zero, Int.neg_zero, Nat.add_zero, Int.pow_zero, Int.mul_one, decide_eq_true_eq]
  split <;> omega

/-! ## Times -/

theorem decDigits_pad (w n : Nat) : DecDigits (pad w n) := decDigits_of (pad_digits w n)

theorem yearText_pad {y : Nat} (h1 : 1 ≤ y) (h2 : y ≤ 9999) : YearText y (pad 4 y) := by
  have hl : (pad 4 y).length = 4 := pad_length (by omega) (by omega)
  refine ⟨[], pad 4 y, rfl, .inl rfl, decDigits_pad _ _, by omega, by omega, ?_, by omega⟩
  rw [positional_eq (pad_digits _ _), digitsNum_pad]

theorem monthText_pad {y m : Nat} (h1 : 1 ≤ y) (h2 : y ≤ 9999) (h3 : 1 ≤ m) (h4 : m ≤ 12) :
    MonthText y m (pad 4 y ++ '-' :: pad 2 m) :=
  ⟨_, _, rfl, yearText_pad h1 h2, twoDigits_iff.mpr ⟨by omega, rfl⟩, h3, h4⟩

theorem daysInMonth_lt (y m : Nat) : daysInMonth y m < 100 := by
  unfold daysInMonth
  split
  · split <;> omega
  · split <;> omega

theorem dayText_iso {d : Date} (h : d.Valid) : DayText (isoDate d) := by
  obtain ⟨h1, h2, h3, h4, h5, h6⟩ := h
  have := daysInMonth_lt d.y d.m
  exact ⟨pad 4 d.y ++ '-' :: pad 2 d.m, pad 2 d.d, d.y, d.m, d.d, by simp [isoDate], monthText_pad h1 h2 h3 h4,
    twoDigits_iff.mpr ⟨by omega, rfl⟩, h5, h6⟩

theorem zoneText_iso {o : Option Int} (h : ∀ i, o = some i → -840 ≤ i ∧ i ≤ 840) : ZoneText (isoOff o) := by
  cases o with
  | none => exact .inl rfl
  | some i =>
    have := h i rfl
    refine .inr (.inr ⟨if i < 0 then '-' else '+', pad 2 (i.natAbs / 60), pad 2 (i.natAbs % 60), i.natAbs / 60, i.natAbs % 60,
      rfl, ?_, twoDigits_iff.mpr ⟨by omega, rfl⟩, twoDigits_iff.mpr ⟨by omega, rfl⟩, by omega, by omega⟩)
    split <;> simp

/-- `str()` of a time is a text of `dateTimeType`. -/
theorem momentText_toStr {k : KmlDateTime} (hv : k.dt.Valid) (hy : k.res = .year ∨ k.res = .yearMonth → 1000 ≤ k.dt.day.y)
    (ho : ∀ d t o, k.dt = .dt d t → t.off = some o → -840 ≤ o ∧ o ≤ 840) : MomentText k.toStr := by
  have hd : k.dt.day.Valid := by
    cases hk : k.dt with
    | date d => rw [hk] at hv; exact hv
    | dt d t => rw [hk] at hv; exact hv.1
  obtain ⟨h1, h2, h3, h4, h5, h6⟩ := id hd
  have plain : ∀ u, (DayText u ∨ (∃ y m, MonthText y m u) ∨ ∃ y, YearText y u) → MomentText u := fun u h =>
    ⟨u, [], by simp, .inl rfl, .inr h⟩
  cases hr : k.res with
  | year =>
    simp only [KmlDateTime.toStr, hr]
    rw [natRepr_four (hy (.inl hr))]
    exact plain _ (.inr (.inr ⟨_, yearText_pad h1 h2⟩))
  | yearMonth =>
    simp only [KmlDateTime.toStr, hr]
    rw [natRepr_four (hy (.inr hr))]
    exact plain _ (.inr (.inl ⟨_, _, monthText_pad h1 h2 h3 h4⟩))
  | date =>
    simp only [KmlDateTime.toStr, hr]
    exact plain _ (.inl (dayText_iso hd))
  | datetime =>
    simp only [KmlDateTime.toStr, hr]
    cases hk : k.dt with
    | date d =>
      rw [hk] at hd
      exact plain _ (.inl (dayText_iso hd))
    | dt d t =>
      rw [hk] at hv
      obtain ⟨hd, ht1, ht2, ht3, ht4, -⟩ := hv
      refine ⟨isoDate d ++ 'T' :: (pad 2 t.h ++ ':' :: pad 2 t.mi ++ ':' :: pad 2 t.s ++
        (if t.us = 0 then [] else '.' :: pad 6 t.us)), isoOff t.off, by simp [Moment.iso, isoDateTime],
        zoneText_iso (fun i hi => ho d t i hk hi), .inl ⟨isoDate d, _, rfl, dayText_iso hd, ?_⟩⟩
      refine ⟨pad 2 t.h, pad 2 t.mi, pad 2 t.s, _, t.h, t.mi, t.s, rfl, twoDigits_iff.mpr ⟨by omega, rfl⟩,
        twoDigits_iff.mpr ⟨by omega, rfl⟩, twoDigits_iff.mpr ⟨by omega, rfl⟩, ht1, ht2, ht3, ?_⟩
      split
      · exact .inl rfl
      · exact .inr ⟨_, rfl, pad_ne_nil _ _, decDigits_pad _ _⟩

end Verif
