import Verif.Lemmas.Times
import Verif.Spec.Iso

/-!
# The text of dates and times is that of ISO 8601
-/

set_option linter.unusedSectionVars false
set_option linter.unusedSimpArgs false

namespace Verif

open Spec

theorem digitVal_char {n : Nat} (h : n < 10) : digitVal (digitChar n) = some n := by
  have : ∀ n : Fin 10, digitVal (digitChar n) = some n.val := by decide
  exact this ⟨n, h⟩

theorem digitVal_some {c : Char} {n : Nat} (h : digitVal c = some n) : n < 10 ∧ c = digitChar n := by
  unfold digitVal at h
  split at h
  · rename_i hc
    simp only [Option.some.injEq] at h
    have h1 : 48 ≤ c.toNat := hc.1
    have h2 : c.toNat ≤ 57 := hc.2
    have h3 : n < 10 := by omega
    refine ⟨h3, ?_⟩
    have h4 : digitVal (digitChar n) = some n := digitVal_char h3
    have h5 : (digitChar n).toNat = n + 48 := by
      have : ∀ n : Fin 10, (digitChar n).toNat = n.val + 48 := by decide
      exact this ⟨n, h3⟩
    exact Char.ext (UInt32.toNat_inj.mp (show c.toNat = (digitChar n).toNat by omega))
  · cases h

theorem twoDigits_iff {s : Str} {n : Nat} : TwoDigits s n ↔ n < 100 ∧ s = pad 2 n := by
  constructor
  · rintro ⟨a, b, x, y, rfl, ha, hb, rfl⟩
    obtain ⟨hx, rfl⟩ := digitVal_some ha
    obtain ⟨hy, rfl⟩ := digitVal_some hb
    have h : 10 * x + y < 100 := by omega
    refine ⟨h, ?_⟩
    rw [pad_two h]
    have e1 : (10 * x + y) / 10 = x := by omega
    have e2 : (10 * x + y) % 10 = y := by omega
    rw [e1, e2]
  · rintro ⟨h, rfl⟩
    exact ⟨_, _, n / 10, n % 10, pad_two h, digitVal_char (by omega), digitVal_char (by omega), by omega⟩

theorem fourDigits_iff {s : Str} {n : Nat} : FourDigits s n ↔ n < 10000 ∧ s = pad 4 n := by
  constructor
  · rintro ⟨u, v, x, y, rfl, hu, hv, rfl⟩
    obtain ⟨hx, rfl⟩ := twoDigits_iff.mp hu
    obtain ⟨hy, rfl⟩ := twoDigits_iff.mp hv
    have e1 : (100 * x + y) / 100 = x := by omega
    have e2 : (100 * x + y) % 100 = y := by omega
    exact ⟨by omega, by rw [pad_four, e1, e2]⟩
  · rintro ⟨h, rfl⟩
    exact ⟨_, _, n / 100, n % 100, pad_four, twoDigits_iff.mpr ⟨by omega, rfl⟩, twoDigits_iff.mpr ⟨by omega, rfl⟩, by omega⟩

theorem isoDate_iff {d : Date} (hd : d.Valid) {s : Str} : IsoDate d s ↔ s = isoDate d := by
  obtain ⟨h1, h2, h3, h4, h5, h6⟩ := hd
  have h7 : d.d < 100 := by
    have : daysInMonth d.y d.m ≤ 31 := by unfold daysInMonth; split <;> (try split) <;> omega
    omega
  constructor
  · rintro ⟨Y, M, D, rfl, hY, hM, hD⟩
    rw [(fourDigits_iff.mp hY).2, (twoDigits_iff.mp hM).2, (twoDigits_iff.mp hD).2, isoDate]
  · rintro rfl
    exact ⟨_, _, _, rfl, fourDigits_iff.mpr ⟨by omega, rfl⟩, twoDigits_iff.mpr ⟨by omega, rfl⟩, twoDigits_iff.mpr ⟨h7, rfl⟩⟩

theorem isoFraction_iff {us : Nat} (h : us < 1000000) {s : Str} :
    IsoFraction us s ↔ s = if us = 0 then [] else '.' :: pad 6 us := by
  unfold IsoFraction
  by_cases h0 : us = 0
  · simp only [h0, if_true]
  · simp only [h0, if_false]
    constructor
    · rintro ⟨a, b, c, x, y, z, rfl, ha, hb, hc, rfl⟩
      obtain ⟨hx, rfl⟩ := twoDigits_iff.mp ha
      obtain ⟨hy, rfl⟩ := twoDigits_iff.mp hb
      obtain ⟨hz, rfl⟩ := twoDigits_iff.mp hc
      have e1 : (10000 * x + 100 * y + z) / 10000 = x := by omega
      have e2 : (10000 * x + 100 * y + z) / 100 % 100 = y := by omega
      have e3 : (10000 * x + 100 * y + z) % 100 = z := by omega
      rw [pad_six, e1, e2, e3]
    · rintro rfl
      exact ⟨_, _, _, us / 10000, us / 100 % 100, us % 100, by rw [pad_six], twoDigits_iff.mpr ⟨by omega, rfl⟩,
        twoDigits_iff.mpr ⟨by omega, rfl⟩, twoDigits_iff.mpr ⟨by omega, rfl⟩, by omega⟩

theorem isoZone_iff {o : Option Int} (h : ∀ q, o = some q → -1440 < q ∧ q < 1440) {s : Str} :
    IsoZone o s ↔ s = isoOff o := by
  cases o with
  | none => exact Iff.rfl
  | some o =>
    obtain ⟨h1, h2⟩ := h o rfl
    simp only [IsoZone, isoOff]
    constructor
    · rintro ⟨sign, hh, m, x, y, rfl, hx, hy, h60, hs⟩
      obtain ⟨hx, rfl⟩ := twoDigits_iff.mp hx
      obtain ⟨hy, rfl⟩ := twoDigits_iff.mp hy
      have e1 : o.natAbs / 60 = x := by omega
      have e2 : o.natAbs % 60 = y := by omega
      rw [e1, e2]
      rcases hs with ⟨rfl, ho⟩ | ⟨rfl, ho, h0⟩
      · rw [if_neg (by omega)]
      · rw [if_pos (by omega)]
    · rintro rfl
      refine ⟨_, _, _, o.natAbs / 60, o.natAbs % 60, rfl, twoDigits_iff.mpr ⟨by omega, rfl⟩,
        twoDigits_iff.mpr ⟨by omega, rfl⟩, by omega, ?_⟩
      by_cases hn : o < 0
      · exact Or.inr ⟨by rw [if_pos hn], by omega, by omega⟩
      · exact Or.inl ⟨by rw [if_neg hn], by omega⟩

/-- There is one text for each date and time. -/
theorem isoDateTime_iff {d : Date} {t : Time} (hd : d.Valid) (ht : t.Valid) {s : Str} :
    IsoDateTime d t s ↔ s = isoDateTime d t := by
  obtain ⟨t1, t2, t3, t4, t5⟩ := ht
  constructor
  · rintro ⟨day, h, mi, sec, frac, zone, rfl, hday, hh, hmi, hsec, hf, hz⟩
    rw [(isoDate_iff hd).mp hday, (twoDigits_iff.mp hh).2, (twoDigits_iff.mp hmi).2, (twoDigits_iff.mp hsec).2,
      (isoFraction_iff t4).mp hf, (isoZone_iff t5).mp hz, isoDateTime]
  · rintro rfl
    exact ⟨_, _, _, _, _, _, rfl, (isoDate_iff hd).mpr rfl, twoDigits_iff.mpr ⟨by omega, rfl⟩,
      twoDigits_iff.mpr ⟨by omega, rfl⟩, twoDigits_iff.mpr ⟨by omega, rfl⟩, (isoFraction_iff t4).mpr rfl,
      (isoZone_iff t5).mpr rfl⟩

end Verif
