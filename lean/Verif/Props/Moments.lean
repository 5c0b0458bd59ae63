import Verif.Spec.Moments
import Verif.Props.Times
import Verif.Props.Simple

set_option linter.unusedSectionVars false
set_option linter.unusedSimpArgs false

/-!
# C76: times in the notation of XML Schema are read and written with their meaning
-/

namespace Verif

open Spec

variable {F : Type} [PyExt F]

/-! ## The law is consistent -/

theorem digits_of_dec {s : Str} (h : DecDigits s) : Digits s := decDigits_iff.mp h

theorem digitsNum_lt_from {s : Str} (h : Digits s) (a : Nat) : digitsNum a s < (a + 1) * 10 ^ s.length := by
  induction s generalizing a with
  | nil => simp [digitsNum]
  | cons c r ih =>
    obtain ⟨d, hd⟩ := h c (by simp)
    have h1 := ih (fun x hx => h x (by simp [hx])) (a * 10 + d)
    have h2 := (digitVal_some hd).1
    simp only [digitsNum, hd, Option.getD_some, List.length_cons, Nat.pow_succ]
    have h3 : (a * 10 + d + 1) * 10 ^ r.length ≤ (a + 1) * 10 * 10 ^ r.length := Nat.mul_le_mul_right _ (by omega)
    calc _ < _ := h1
      _ ≤ _ := h3
      _ = _ := by rw [Nat.mul_assoc, Nat.mul_comm 10 (10 ^ r.length)]

theorem digitsNum_lt {s : Str} (h : Digits s) : digitsNum 0 s < 10 ^ s.length := by
  simpa using digitsNum_lt_from h 0

theorem ymdMatch_isoT {d : Date} (hd : d.Valid) (r : Str) : ymdMatch (isoDate d ++ 'T' :: r) = none := by
  have h7 := day_lt hd
  obtain ⟨h1, h2, h3, h4, h5, h6⟩ := hd
  unfold isoDate ymdMatch
  simp only [List.append_assoc, List.cons_append, take4_pad (show d.y < 10000 by omega),
    dropDash_dash, opt2_pad (show d.m < 100 by omega), opt2_pad h7]
  simp

theorem offset_head {o : Option Int} {s : Str} (h : OffsetText o s) : ∀ c, s.head? = some c → c = 'Z' ∨ c = '+' ∨ c = '-' := by
  intro c hc
  rcases h with ⟨rfl, -⟩ | ⟨rfl, -⟩ | ⟨sign, hh, m, x, y, rfl, -, -, -, -, h⟩
  · cases hc
  · simp at hc; exact .inl hc.symm
  · simp at hc
    subst hc
    rcases h with ⟨h, -⟩ | ⟨h, -⟩
    · exact .inr (.inl h)
    · exact .inr (.inr h)

theorem isoO_offset {o : Option Int} {s : Str} (h : OffsetText o s) :
    Fix.isoO s = some (o.getD 0) ∧ ∀ q, o = some q → -1440 < q ∧ q < 1440 := by
  rcases h with ⟨rfl, rfl⟩ | ⟨rfl, rfl⟩ | ⟨sign, hh, m, x, y, rfl, hx, hy, h1, h2, h⟩
  · exact ⟨rfl, fun q h => by cases h⟩
  · exact ⟨rfl, fun q h => by cases h; decide⟩
  · obtain ⟨hx', rfl⟩ := twoDigits_iff.mp hx
    obtain ⟨hy', rfl⟩ := twoDigits_iff.mp hy
    have a3 : take2 (pad 2 y) = some (y, []) := by
      have := take2_pad hy' []; rwa [List.append_nil] at this
    rcases h with ⟨rfl, rfl⟩ | ⟨rfl, rfl⟩
    · refine ⟨?_, fun q h => by cases h; omega⟩
      simp only [List.cons_append, Fix.isoO, Fix.t2_pad hx', a3, Option.getD_some, Int.ofNat_eq_natCast]
      congr 2
      omega
    · refine ⟨?_, fun q h => by cases h; omega⟩
      simp only [List.cons_append, Fix.isoO, Fix.t2_pad hx', a3, Option.getD_some, Int.ofNat_eq_natCast]
      congr 3
      omega

theorem fraction_lt {us : Nat} {s : Str} (h : FractionText us s) : us < 1000000 := by
  rcases h with ⟨-, rfl⟩ | ⟨ds, rfl, hne, hl, hd, rfl⟩
  · decide
  · rw [positional_eq (digits_of_dec hd)]
    have h1 : digitsNum 0 ds < 10 ^ ds.length := digitsNum_lt (digits_of_dec hd)
    have h2 : digitsNum 0 ds * 10 ^ (6 - ds.length) < 10 ^ ds.length * 10 ^ (6 - ds.length) :=
      Nat.mul_lt_mul_of_pos_right h1 (Nat.pow_pos (by decide))
    rw [← Nat.pow_add, Nat.add_sub_cancel' hl] at h2
    exact h2

theorem isoU_fraction {us : Nat} {s z : Str} (h : FractionText us s) (hz : ∀ c, z.head? = some c → c = 'Z' ∨ c = '+' ∨ c = '-') :
    Fix.isoU (s ++ z) = some (us, z) := by
  rcases h with ⟨rfl, rfl⟩ | ⟨ds, rfl, hne, hl, hd, rfl⟩
  · exact Fix.isoU_none fun h => by rcases hz _ h with h | h | h <;> exact absurd h (by decide)
  · rw [List.cons_append, Fix.isoU_digits (digits_of_dec hd) hne hl, positional_eq (digits_of_dec hd)]
    intro c hc
    rcases hz c hc with rfl | rfl | rfl <;> decide

theorem dateTimeText_valid {d : Date} {t : Time} {s : Str} (h : DateTimeText d t s) : d.Valid ∧ t.Valid := by
  obtain ⟨day, hh, mi, sec, frac, zone, rfl, hday, hv, h1, h1', h2, h2', h3, h3', hf, ho⟩ := h
  exact ⟨hv, h1', h2', h3', fraction_lt hf, fun o h => (isoO_offset ho).2 o h⟩

instance : ReadsTimes Fix where
  arrow_get := by
    intro d t s h
    have hval := dateTimeText_valid h
    obtain ⟨day, hh, mi, sec, frac, zone, rfl, hday, hv, h1, h1', h2, h2', h3, h3', hf, ho⟩ := h
    show Fix.isoParse _ = _
    rw [(isoDate_iff hv).mp hday, (twoDigits_iff.mp h1).2, (twoDigits_iff.mp h2).2, (twoDigits_iff.mp h3).2]
    have hd7 := day_lt hv
    have hv' := hv
    obtain ⟨v1, v2, v3, v4, v5, v6⟩ := hv'
    have hD : ∀ r, Fix.isoD (isoDate d ++ 'T' :: r) = some (d, r) := by
      intro r
      unfold Fix.isoD isoDate
      simp only [List.append_assoc, List.cons_append, take4_pad (show d.y < 10000 by omega),
        Fix.t2_pad (show d.m < 100 by omega), Fix.t2_pad hd7]
    unfold Fix.isoParse
    simp only [List.append_assoc, List.cons_append, hD, Fix.t2_pad (show t.h < 100 by omega),
      Fix.t2_pad (show t.mi < 100 by omega), take2_pad (show t.s < 100 by omega), isoU_fraction hf (offset_head ho), (isoO_offset ho).1]
    rw [if_pos]
    refine ⟨hv, h1', h2', h3', hval.2.2.2.2.1, fun o h => ?_⟩
    simp only [Option.some.injEq] at h
    cases ht : t.off with
    | none => rw [ht] at h; simp at h; omega
    | some q => rw [ht] at h; simp at h; exact h ▸ hval.2.2.2.2.2 q ht

/-- The law holds of the exact decimal numbers too. -/
instance : ReadsTimes XFix where
  arrow_get := ReadsTimes.arrow_get (F := Fix)

/-! ## Reading -/

/-- Points in time are not dates for fastkml. -/
theorem ymdMatch_dateTime {d : Date} {t : Time} {s : Str} (h : DateTimeText d t s) : ymdMatch s = none := by
  obtain ⟨day, hh, mi, sec, frac, zone, rfl, hday, hv, -⟩ := h
  rw [(isoDate_iff hv).mp hday]
  have := ymdMatch_isoT (d := d) hv (hh ++ ':' :: mi ++ ':' :: sec ++ frac ++ zone)
  simpa only [List.append_assoc, List.cons_append] using this

/-- **C76, reading.** A year, month, day or point in time in the notation of XML Schema is
read with exactly that meaning; a time without a zone is taken for UTC. -/
theorem C76_read [LawfulExt F] [ReadsTimes F] {s : Str} {k : KmlDateTime} (h : TimeText s k) :
    KmlDateTime.parse (PyExt.arrowGet F) s = some (inUtc k) := by
  obtain ⟨dt, res⟩ := k
  cases res <;> cases dt <;> simp only [TimeText] at h <;> try exact h.elim
  case year.date d =>
    obtain ⟨d1, d2, d3⟩ := d
    obtain ⟨h, h1, h2, h3⟩ := h
    simp only at h h1 h2 h3
    subst h2 h3
    obtain ⟨h0, rfl⟩ := fourDigits_iff.mp h
    rw [C21_year d1 h0, if_pos h1]; rfl
  case yearMonth.date d =>
    obtain ⟨d1, d2, d3⟩ := d
    obtain ⟨⟨Y, M, rfl, hY, hM⟩, h1, h2, h3, h4⟩ := h
    simp only at hY hM h1 h2 h3 h4
    subst h4
    obtain ⟨h0, rfl⟩ := fourDigits_iff.mp hY
    obtain ⟨h0', rfl⟩ := twoDigits_iff.mp hM
    have := C21_yearMonth (F := F) d1 d2 h0 h0'
    simp only [List.append_assoc, List.cons_append, List.nil_append] at this
    rw [this, if_pos ⟨h1, h2, h3⟩]; rfl
  case date.date d =>
    have hv := h.2
    obtain ⟨h1, h2, h3, h4, h5, h6⟩ := h.2
    rw [(isoDate_iff h.2).mp h.1, isoDate_eq, C21_date d.y d.m d.d (by omega) (by omega) (day_lt hv),
      if_pos (show (⟨d.y, d.m, d.d⟩ : Date).Valid from hv)]
    rfl
  case datetime.dt d t =>
    unfold KmlDateTime.parse
    rw [ymdMatch_dateTime h]
    simp only [ReadsTimes.arrow_get d t s h]
    rfl

/-- The year, month and day of the text of a time are there. -/
theorem timeText_valid {s : Str} {k : KmlDateTime} (h : TimeText s k) : k.dt.Valid := by
  obtain ⟨dt, res⟩ := k
  cases res <;> cases dt <;> simp only [TimeText] at h <;> try exact h.elim
  case year.date d =>
    obtain ⟨d1, d2, d3⟩ := d
    obtain ⟨h, h1, h2, h3⟩ := h
    simp only at h h1 h2 h3
    subst h2 h3
    have := (fourDigits_iff.mp h).1
    exact ⟨h1, by simp only; omega, by simp only; omega, by simp only; omega, by simp only; omega, by simp [daysInMonth]⟩
  case yearMonth.date d =>
    obtain ⟨d1, d2, d3⟩ := d
    obtain ⟨⟨Y, M, rfl, hY, hM⟩, h1, h2, h3, h4⟩ := h
    simp only at hY hM h1 h2 h3 h4
    subst h4
    have := (fourDigits_iff.mp hY).1
    refine ⟨h1, by simp only; omega, h2, h3, by simp only; omega, ?_⟩
    simp only
    unfold daysInMonth; split <;> (try split) <;> omega
  case date.date d =>
    exact h.2
  case datetime.dt d t =>
    exact dateTimeText_valid h

theorem positional_pad (w n : Nat) : positional (pad w n) = n := by
  rw [positional_eq (pad_digits w n), digitsNum_pad]

/-- ISO 8601 as Python prints it is in the notation of XML Schema. -/
theorem dateTimeText_iso {d : Date} {t : Time} (hd : d.Valid) (ht : t.Valid) (ho : ∀ o, t.off = some o → -840 ≤ o ∧ o ≤ 840) :
    DateTimeText d t (isoDateTime d t) := by
  obtain ⟨t1, t2, t3, t4, t5⟩ := ht
  refine ⟨isoDate d, pad 2 t.h, pad 2 t.mi, pad 2 t.s, _, isoOff t.off, rfl, (isoDate_iff hd).mpr rfl, hd, twoDigits_pad (by omega), t1,
    twoDigits_pad (by omega), t2, twoDigits_pad (by omega), t3, ?_, ?_⟩
  · by_cases h0 : t.us = 0
    · rw [if_pos h0]; exact .inl ⟨rfl, h0⟩
    · rw [if_neg h0]
      have hl : (pad 6 t.us).length = 6 := pad_length (by decide) t4
      exact .inr ⟨_, rfl, pad_ne_nil _ _, by omega, decDigits_iff.mpr (pad_digits _ _), by rw [positional_pad, hl]; simp⟩
  · cases hoff : t.off with
    | none => exact .inl ⟨rfl, rfl⟩
    | some o =>
      obtain ⟨o1, o2⟩ := ho o hoff
      refine .inr (.inr ⟨if o < 0 then '-' else '+', pad 2 (o.natAbs / 60), pad 2 (o.natAbs % 60), o.natAbs / 60, o.natAbs % 60, rfl,
        twoDigits_pad (by omega), twoDigits_pad (by omega), by omega, by omega, ?_⟩)
      by_cases hn : o < 0
      · exact .inr ⟨by rw [if_pos hn], by congr 1; omega⟩
      · exact .inl ⟨by rw [if_neg hn], by congr 1; omega⟩

theorem offset_near {o : Option Int} {s : Str} (h : OffsetText o s) : ∀ q, o = some q → -840 ≤ q ∧ q ≤ 840 := by
  rcases h with ⟨rfl, rfl⟩ | ⟨rfl, rfl⟩ | ⟨sign, hh, m, x, y, rfl, hx, hy, h1, h2, h⟩
  · intro q h; cases h
  · intro q h; cases h; decide
  · rcases h with ⟨-, rfl⟩ | ⟨-, rfl⟩ <;> (intro q h; cases h; omega)

/-- **C76, writing.** What is written of a time that was read means the same: the year,
month, day or point in time of the text, in UTC if there was no zone (years from 1000 on,
where there is no day). -/
theorem C76_write {s : Str} {k : KmlDateTime} (h : TimeText s k) (hy : FullYear k) : TimeText (inUtc k).toStr (inUtc k) := by
  have hv := timeText_valid h
  obtain ⟨dt, res⟩ := k
  cases res <;> cases dt <;> simp only [TimeText] at h <;> try exact h.elim
  case year.date d =>
    have : 1000 ≤ d.y := hy (.inl rfl)
    refine ⟨?_, h.2⟩
    show FourDigits (natRepr d.y) d.y
    rw [natRepr_four this]
    exact fourDigits_pad (fourDigits_iff.mp h.1).1
  case yearMonth.date d =>
    have : 1000 ≤ d.y := hy (.inr rfl)
    obtain ⟨⟨Y, M, rfl, hY, hM⟩, h⟩ := h
    refine ⟨⟨_, _, rfl, ?_, twoDigits_pad (twoDigits_iff.mp hM).1⟩, h⟩
    show FourDigits (natRepr d.y) d.y
    rw [natRepr_four this]
    exact fourDigits_pad (fourDigits_iff.mp hY).1
  case date.date d =>
    exact ⟨(isoDate_iff h.2).mpr rfl, h.2⟩
  case datetime.dt d t =>
    obtain ⟨hd, t1, t2, t3, t4, t5⟩ := hv
    obtain ⟨day, hh, mi, sec, frac, zone, -, -, -, -, -, -, -, -, -, -, ho⟩ := h
    have hnear := offset_near ho
    refine dateTimeText_iso (t := { t with off := some (t.off.getD 0) }) hd ⟨t1, t2, t3, t4, fun o h => ?_⟩ fun o h => ?_
    · simp only [Option.some.injEq] at h
      cases ht : t.off with
      | none => rw [ht] at h; simp at h; omega
      | some q => rw [ht] at h; simp at h; exact h ▸ t5 q ht
    · simp only [Option.some.injEq] at h
      cases ht : t.off with
      | none => rw [ht] at h; simp at h; omega
      | some q => rw [ht] at h; simp at h; exact h ▸ hnear q ht

/-- A text has one meaning. -/
theorem C76_one {s : Str} {k l : KmlDateTime} (hk : TimeText s k) (hl : TimeText s l) : inUtc k = inUtc l := by
  have h := C76_read (F := Fix) hk
  rw [C76_read (F := Fix) hl] at h
  simpa using h.symm

/-! ## The times of the schemas -/

theorem zoneText_offset {o : Option Int} {s : Str} (h : OffsetText o s) : ZoneText s := by
  rcases h with ⟨rfl, -⟩ | ⟨rfl, -⟩ | ⟨sign, hh, m, x, y, rfl, hx, hy, h1, h2, h⟩
  · exact .inl rfl
  · exact .inr (.inl rfl)
  · refine .inr (.inr ⟨sign, hh, m, x, y, rfl, ?_, hx, hy, h1, h2⟩)
    rcases h with ⟨h, -⟩ | ⟨h, -⟩
    · exact .inl h
    · exact .inr h

theorem fourDigits_positional {ds : Str} (h : DecDigits ds) (hl : ds.length = 4) : FourDigits ds (positional ds) := by
  match ds, hl with
  | [a, b, c, d], _ =>
    obtain ⟨x, hx⟩ := digits_of_dec h a (by simp)
    obtain ⟨y, hy⟩ := digits_of_dec h b (by simp)
    obtain ⟨z, hz⟩ := digits_of_dec h c (by simp)
    obtain ⟨w, hw⟩ := digits_of_dec h d (by simp)
    refine ⟨[a, b], [c, d], 10 * x + y, 10 * z + w, rfl, ⟨a, b, x, y, rfl, hx, hy, rfl⟩, ⟨c, d, z, w, rfl, hz, hw, rfl⟩, ?_⟩
    rw [positional_eq (digits_of_dec h)]
    simp only [digitsNum, hx, hy, hz, hw, Option.getD_some]
    omega

theorem yearText_of {s : Str} {y : Nat} (h : FourDigits s y) (hy : 1 ≤ y) : YearText y s := by
  obtain ⟨h0, rfl⟩ := fourDigits_iff.mp h
  have hl : (pad 4 y).length = 4 := pad_length (by decide) h0
  exact ⟨[], pad 4 y, rfl, .inl rfl, decDigits_iff.mpr (pad_digits _ _), Nat.le_of_eq hl.symm, fun h => absurd h (by rw [hl]; decide),
    (positional_pad _ _).symm, by omega⟩

theorem dayText_of {d : Date} {s : Str} (h : IsoDate d s) (hv : d.Valid) : DayText s := by
  obtain ⟨Y, M, D, rfl, hY, hM, hD⟩ := h
  obtain ⟨h1, h2, h3, h4, h5, h6⟩ := hv
  exact ⟨Y ++ '-' :: M, D, d.y, d.m, d.d, by simp, ⟨Y, M, rfl, yearText_of hY h1, hM, h3, h4⟩, hD, h5, h6⟩

/-- **C76, validity.** The texts of C76 are valid. -/
theorem C76_schema {s : Str} {k : KmlDateTime} (h : TimeText s k) : MomentText s := by
  obtain ⟨dt, res⟩ := k
  cases res <;> cases dt <;> simp only [TimeText] at h <;> try exact h.elim
  case year.date d =>
    exact ⟨s, [], by simp, .inl rfl, .inr (.inr (.inr ⟨_, yearText_of h.1 h.2.1⟩))⟩
  case yearMonth.date d =>
    obtain ⟨⟨Y, M, rfl, hY, hM⟩, h1, h2, h3, -⟩ := h
    exact ⟨_, [], by simp, .inl rfl, .inr (.inr (.inl ⟨_, _, Y, M, rfl, yearText_of hY h1, hM, h2, h3⟩))⟩
  case date.date d =>
    exact ⟨s, [], by simp, .inl rfl, .inr (.inl (dayText_of h.1 h.2))⟩
  case datetime.dt d t =>
    obtain ⟨day, hh, mi, sec, frac, zone, rfl, hday, hv, h1, h1', h2, h2', h3, h3', hf, ho⟩ := h
    refine ⟨day ++ 'T' :: (hh ++ ':' :: mi ++ ':' :: sec ++ frac), zone, by simp, zoneText_offset ho, .inl ⟨day, _, rfl, dayText_of hday hv, ?_⟩⟩
    refine ⟨hh, mi, sec, frac, _, _, _, rfl, h1, h2, h3, h1', h2', h3', ?_⟩
    rcases hf with ⟨rfl, -⟩ | ⟨ds, rfl, hne, -, hd, -⟩
    · exact .inl rfl
    · exact .inr ⟨ds, rfl, hne, hd⟩

/-- A year before 1 or after 9999. -/
def FarYear (s : Str) : Prop := s.head? = some '-' ∨ ∃ c d, s[4]? = some c ∧ digitVal c = some d

theorem year_cases {y : Nat} {Y : Str} (h : YearText y Y) (r : Str) : FourDigits Y y ∧ 1 ≤ y ∨ FarYear (Y ++ r) := by
  obtain ⟨sg, ds, rfl, rfl | rfl, hd, hl, -, hy, h0⟩ := h
  · by_cases h4 : ds.length = 4
    · left
      rw [hy]
      exact ⟨fourDigits_positional hd h4, by omega⟩
    · right; right
      have h5 : 4 < ds.length := by omega
      obtain ⟨d, hd'⟩ := digits_of_dec hd ds[4] (List.getElem_mem h5)
      refine ⟨ds[4], d, ?_, hd'⟩
      rw [List.nil_append, List.getElem?_append_left h5]
      exact List.getElem?_eq_getElem h5
  · exact .inr (.inl rfl)

/-- **C76, coverage.** Every time that is valid is of the kind of C76, except for years
before 1 and after 9999, zones where there is no clock, and more than six digits of a
second. -/
theorem C76_covers {s : Str} (h : MomentText s) :
    (∃ k, TimeText s k) ∨ FarYear s ∨
    (∃ u z, s = u ++ z ∧ ZoneText z ∧ z ≠ [] ∧ (DayText u ∨ (∃ y m, MonthText y m u) ∨ ∃ y, YearText y u)) ∨
    ∃ a ds b, s = a ++ '.' :: ds ++ b ∧ DecDigits ds ∧ 6 < ds.length := by
  obtain ⟨u, z, rfl, hz, h⟩ := h
  rcases h with ⟨d, t, rfl, hd, ht⟩ | h
  · obtain ⟨ym, D, y, m, dd, rfl, ⟨Y, M, rfl, hY, hM, m1, m2⟩, hD, d1, d2⟩ := hd
    obtain ⟨hh, mi, sec, frac, x1, x2, x3, rfl, h1, h2, h3, l1, l2, l3, hf⟩ := ht
    rcases year_cases hY ('-' :: M ++ '-' :: D ++ 'T' :: (hh ++ ':' :: mi ++ ':' :: sec ++ frac) ++ z) with ⟨hY, hy⟩ | hfar
    · by_cases hsix : ∃ ds, frac = '.' :: ds ∧ DecDigits ds ∧ 6 < ds.length
      · obtain ⟨ds, rfl, hds, hl⟩ := hsix
        exact .inr (.inr (.inr ⟨Y ++ '-' :: M ++ '-' :: D ++ 'T' :: (hh ++ ':' :: mi ++ ':' :: sec), ds, z, by simp, hds, hl⟩))
      · left
        have hY' := (fourDigits_iff.mp hY).1
        have hfrac : ∃ us, FractionText us frac := by
          rcases hf with rfl | ⟨ds, rfl, hne, hds⟩
          · exact ⟨0, .inl ⟨rfl, rfl⟩⟩
          · refine ⟨_, .inr ⟨ds, rfl, hne, ?_, hds, rfl⟩⟩
            exact Nat.le_of_not_lt fun h => hsix ⟨ds, rfl, hds, h⟩
        have hoff : ∃ o, OffsetText o z := by
          rcases hz with rfl | rfl | ⟨sign, h, m, x, y, rfl, hs, hx, hy, hl, hb⟩
          · exact ⟨none, .inl ⟨rfl, rfl⟩⟩
          · exact ⟨some 0, .inr (.inl ⟨rfl, rfl⟩)⟩
          · rcases hs with rfl | rfl
            · exact ⟨_, .inr (.inr ⟨'+', h, m, x, y, rfl, hx, hy, hl, hb, .inl ⟨rfl, rfl⟩⟩)⟩
            · exact ⟨_, .inr (.inr ⟨'-', h, m, x, y, rfl, hx, hy, hl, hb, .inr ⟨rfl, rfl⟩⟩)⟩
        obtain ⟨us, hus⟩ := hfrac
        obtain ⟨o, ho⟩ := hoff
        exact ⟨⟨.dt ⟨y, m, dd⟩ ⟨x1, x2, x3, us, o⟩, .datetime⟩, Y ++ '-' :: M ++ '-' :: D, hh, mi, sec, frac, z, by simp,
          ⟨Y, M, D, rfl, hY, hM, hD⟩, ⟨hy, by simp only; omega, m1, m2, d1, d2⟩, h1, l1, h2, l2, h3, l3, hus, ho⟩
    · refine .inr (.inl ?_)
      simpa using hfar
  · by_cases hz0 : z = []
    · subst hz0
      rw [List.append_nil]
      rcases h with ⟨ym, D, y, m, dd, rfl, ⟨Y, M, rfl, hY, hM, m1, m2⟩, hD, d1, d2⟩ | ⟨y, m, Y, M, rfl, hY, hM, m1, m2⟩ | ⟨y, hY⟩
      · rcases year_cases hY ('-' :: M ++ '-' :: D) with ⟨hY, hy⟩ | hfar
        · have hY' := (fourDigits_iff.mp hY).1
          exact .inl ⟨⟨.date ⟨y, m, dd⟩, .date⟩, ⟨Y, M, D, by simp, hY, hM, hD⟩, hy, by simp only; omega, m1, m2, d1, d2⟩
        · exact .inr (.inl (by simpa using hfar))
      · rcases year_cases hY ('-' :: M) with ⟨hY, hy⟩ | hfar
        · exact .inl ⟨⟨.date ⟨y, m, 1⟩, .yearMonth⟩, ⟨Y, M, rfl, hY, hM⟩, hy, m1, m2, rfl⟩
        · exact .inr (.inl hfar)
      · rcases year_cases hY [] with ⟨hY, hy⟩ | hfar
        · exact .inl ⟨⟨.date ⟨y, 1, 1⟩, .year⟩, hY, hy, rfl, rfl⟩
        · exact .inr (.inl (by simpa using hfar))
    · exact .inr (.inr (.inl ⟨u, z, rfl, hz, hz0, h⟩))

/-- Concrete case: `Z`, three digits of a second. -/
example : TimeText (s% "1997-07-16T07:30:15.25Z") ⟨.dt ⟨1997, 7, 16⟩ ⟨7, 30, 15, 250000, some 0⟩, .datetime⟩ := by
  refine ⟨s% "1997-07-16", s% "07", s% "30", s% "15", s% ".25", s% "Z", rfl, (isoDate_iff (by decide)).mpr (by decide), by decide,
    twoDigits_iff.mpr (by decide), by decide, twoDigits_iff.mpr (by decide), by decide, twoDigits_iff.mpr (by decide), by decide,
    .inr ⟨s% "25", rfl, by decide, by decide, by unfold DecDigits; decide, by decide⟩, .inr (.inl ⟨rfl, rfl⟩)⟩

example : (inUtc ⟨.dt ⟨1997, 7, 16⟩ ⟨7, 30, 15, 250000, some 0⟩, .datetime⟩).toStr = s% "1997-07-16T07:30:15.250000+00:00" := by
  decide

end Verif
