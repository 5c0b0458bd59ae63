import Verif.Offsets
import Verif.Lemmas.Simple

/-!
# C83: the times that fit the schema
-/

set_option linter.unusedSectionVars false
set_option linter.unusedSimpArgs false

namespace Verif

open Spec

/-! ## Lemmas -/

theorem isoOffset_minutes (o : Int) : isoOffset (o * 60000000) = isoOff (some o) := by
  have h1 : (o * 60000000).natAbs = o.natAbs * 60000000 := by rw [Int.natAbs_mul]; rfl
  have h2 : o.natAbs * 60000000 / 3600000000 = o.natAbs / 60 := by omega
  have h3 : o.natAbs * 60000000 / 60000000 = o.natAbs := by omega
  have h4 : o.natAbs * 60000000 % 60000000 = 0 := by omega
  have h5 : (o * 60000000 < 0) ↔ o < 0 := by omega
  simp only [isoOffset, isoOff, h1, h2, h3, h4, h5, if_true, List.append_nil]

namespace Clock

/-- How many colons a text has. -/
abbrev colons (s : Str) : Nat := s.count ':'

theorem colons_dec {s : Str} (h : DecDigits s) : colons s = 0 := by
  refine List.count_eq_zero.mpr fun hm => ?_
  exact absurd (h _ hm).2 (by decide)

theorem colons_pad (w n : Nat) : colons (pad w n) = 0 := colons_dec (decDigits_pad w n)

theorem two_pad {s : Str} {n : Nat} (h : TwoDigits s n) : s = pad 2 n := (twoDigits_iff.mp h).2

theorem pad_inj {w n n' : Nat} (h : pad w n = pad w n') : n = n' := by
  have := congrArg (digitsNum 0) h
  rwa [digitsNum_pad, digitsNum_pad] at this

theorem two_length {s : Str} {n : Nat} (h : TwoDigits s n) : s.length = 2 := by
  obtain ⟨a, b, x, y, rfl, _⟩ := h
  rfl

theorem two_colons {s : Str} {n : Nat} (h : TwoDigits s n) : colons s = 0 := by
  rw [two_pad h]
  exact colons_pad _ _

theorem year_colons {y : Nat} {s : Str} (h : YearText y s) : colons s = 0 := by
  obtain ⟨sg, ds, rfl, hs, hd, _⟩ := h
  have := colons_dec hd
  rcases hs with rfl | rfl <;> simpa [colons] using this

theorem month_colons {y m : Nat} {s : Str} (h : MonthText y m s) : colons s = 0 := by
  obtain ⟨Y, M, rfl, hY, hM, _⟩ := h
  have h1 := year_colons hY
  have h2 := two_colons hM
  simp only [colons] at h1 h2
  simp [colons, List.count_append, h1, h2]

theorem day_colons {s : Str} (h : DayText s) : colons s = 0 := by
  obtain ⟨ym, D, y, m, d, rfl, hY, hM, _⟩ := h
  have h1 := month_colons hY
  have h2 := two_colons hM
  simp only [colons] at h1 h2
  simp [colons, List.count_append, h1, h2]

theorem clock_colons {s : Str} (h : ClockText s) : colons s = 2 := by
  obtain ⟨h', mi, sec, frac, x, y, z, rfl, h1, h2, h3, _, _, _, h4⟩ := h
  have h1 := two_colons h1
  have h2 := two_colons h2
  have h3 := two_colons h3
  have h4 : colons frac = 0 := by
    rcases h4 with rfl | ⟨ds, rfl, _, hd⟩
    · rfl
    · simpa [colons] using colons_dec hd
  simp only [colons] at h1 h2 h3 h4
  simp [colons, List.count_append, h1, h2, h3, h4]

theorem body_colons {u : Str} (h : (∃ d t, u = d ++ 'T' :: t ∧ DayText d ∧ ClockText t) ∨ DayText u ∨
    (∃ y m, MonthText y m u) ∨ ∃ y, YearText y u) : colons u ≤ 2 := by
  rcases h with ⟨d, t, rfl, hd, ht⟩ | h | ⟨y, m, h⟩ | ⟨y, h⟩
  · have h1 := day_colons hd
    have h2 := clock_colons ht
    simp only [colons] at h1 h2
    simp [colons, List.count_append, h1, h2]
  · rw [day_colons h]; omega
  · rw [month_colons h]; omega
  · rw [year_colons h]; omega

theorem zone_colons {s : Str} (h : ZoneText s) : colons s ≤ 1 := by
  rcases h with rfl | rfl | ⟨sg, a, b, x, y, rfl, hs, h1, h2, _⟩
  · simp [colons]
  · simp [colons]
  · have h1 := two_colons h1
    have h2 := two_colons h2
    simp only [colons] at h1 h2
    rcases hs with rfl | rfl <;> simp [colons, List.count_append, h1, h2]

theorem moment_colons {s : Str} (h : MomentText s) : colons s ≤ 3 := by
  obtain ⟨u, z, rfl, hz, hu⟩ := h
  have h1 := zone_colons hz
  have h2 := body_colons hu
  simp only [colons, List.count_append] at *
  omega

theorem naive_colons (d : Date) (t : Time) : colons (isoDateTime d { t with off := none }) = 2 := by
  have := colons_pad
  simp only [colons] at this
  unfold isoDateTime isoDate isoOff colons
  split <;> simp [List.count_append, this]

theorem offset_colons (o : Int) : colons (isoOffset o) = if o.natAbs % 60000000 = 0 then 1 else 2 := by
  have := colons_pad
  simp only [colons] at this
  unfold isoOffset colons
  have hf : List.count ':' (if o.natAbs % 1000000 = 0 then [] else '.' :: pad 6 (o.natAbs % 1000000)) = 0 := by
    split <;> simp [this]
  by_cases ho : o < 0 <;> by_cases h : o.natAbs % 60000000 = 0 <;>
    by_cases h' : o.natAbs % 60000000 % 1000000 = 0 <;> simp [List.count_append, this, h, h', ho, hf]

theorem isoDateTime_off (d : Date) (t : Time) (o : Option Int) :
    isoDateTime d { t with off := o } = isoDateTime d { t with off := none } ++ isoOff o := by
  simp [isoDateTime, isoOff]

/-- Only zones of at most 14 hours. -/
theorem moment_zone {d : Date} {t : Time} {o : Int} (h1 : -1440 < o) (h2 : o < 1440)
    (h : MomentText (isoDateTime d { t with off := none } ++ isoOff (some o))) : -840 ≤ o ∧ o ≤ 840 := by
  obtain ⟨u, z, he, hz, hu⟩ := h
  have hb := body_colons hu
  have hc : colons (isoDateTime d { t with off := none } ++ isoOff (some o)) = 3 := by
    have k1 := naive_colons d t
    have k2 := offset_colons (o * 60000000)
    rw [isoOffset_minutes, if_pos (by omega)] at k2
    simp only [colons, List.count_append] at *
    omega
  rw [he] at hc
  simp only [colons, List.count_append] at hb hc
  have hone : z.count ':' ≥ 1 := by omega
  rcases hz with rfl | rfl | ⟨sg, a, b, x, y, rfl, _, k1, k2, k3, k4⟩
  · simp at hone
  · simp at hone
  · have ho : isoOff (some o) = (if o < 0 then '-' else '+') :: pad 2 (o.natAbs / 60) ++ ':' :: pad 2 (o.natAbs % 60) := rfl
    have l1 : (pad 2 (o.natAbs / 60)).length = 2 := pad_length (by omega) (by omega)
    have l2 : (pad 2 (o.natAbs % 60)).length = 2 := pad_length (by omega) (by omega)
    have hl := List.append_inj_right' he (by rw [ho]; simp [l1, l2, two_length k1, two_length k2])
    rw [ho] at hl
    simp only [List.cons_append, List.cons.injEq] at hl
    have e1 := List.append_inj_left hl.2 (by rw [l1, two_length k1])
    have e2 := List.append_inj_right hl.2 (by rw [l1, two_length k1])
    simp only [List.cons.injEq, true_and] at e2
    have a1 : x = o.natAbs / 60 := by
      have := two_pad k1
      rw [← e1] at this
      exact (pad_inj this).symm
    have a2 : y = o.natAbs % 60 := by
      have := two_pad k2
      rw [← e2] at this
      exact (pad_inj this).symm
    omega

theorem year_length {y : Nat} {s : Str} (h : YearText y s) : 4 ≤ s.length := by
  obtain ⟨sg, ds, rfl, _, _, h, _⟩ := h
  simp; omega

theorem moment_length {s : Str} (h : MomentText s) : 4 ≤ s.length ∧
    ('Z' ∉ s → ':' ∉ s → s.length < 7 → ∃ y, YearText y s) := by
  obtain ⟨u, z, rfl, hz, hu⟩ := h
  have hm : ∀ {y m : Nat} {u : Str}, MonthText y m u → 7 ≤ u.length := by
    rintro y m u ⟨Y, M, rfl, hY, hM, _⟩
    have := year_length hY
    have := two_length hM
    simp; omega
  have hd : ∀ {u : Str}, DayText u → 7 ≤ u.length := by
    rintro u ⟨ym, D, y, m, d, rfl, hY, _⟩
    have := hm hY
    simp; omega
  refine ⟨?_, fun h1 h2 h3 => ?_⟩
  · have : 4 ≤ u.length := by
      rcases hu with ⟨d, t, rfl, h, _⟩ | h | ⟨y, m, h⟩ | ⟨y, h⟩
      · have := hd h; simp; omega
      · have := hd h; omega
      · have := hm h; omega
      · exact year_length h
    simp; omega
  · have hz : z = [] := by
      rcases hz with rfl | rfl | ⟨sg, a, b, x, y, rfl, _⟩
      · rfl
      · exact absurd (by simp) h1
      · exact absurd (by simp) h2
    subst hz
    rw [List.append_nil] at h3 ⊢
    rcases hu with ⟨d, t, rfl, h, _⟩ | h | ⟨y, m, h⟩ | h
    · have := hd h; simp at h3; omega
    · have := hd h; omega
    · have := hm h; omega
    · exact h

theorem not_month {y m : Nat} (hy : y < 1000) (hm : m < 100) : ¬ MomentText (natRepr y ++ '-' :: pad 2 m) := by
  intro h
  have l1 := natRepr_length_le (w := 3) (by omega) hy
  have l2 : (pad 2 m).length = 2 := pad_length (by omega) (by omega)
  have hc : ∀ c ∈ natRepr y ++ '-' :: pad 2 m, c ≤ '9' := by
    intro c hc
    simp only [List.mem_append, List.mem_cons] at hc
    rcases hc with hc | rfl | hc
    · obtain ⟨v, hv⟩ := natRepr_digits y c hc
      exact (digitVal_range hv).2
    · decide
    · exact (decDigits_pad _ _ c hc).2
  obtain ⟨y', sg, ds, he, hs, hd, _⟩ := (moment_length h).2 (fun h => absurd (hc _ h) (by decide))
    (fun h => absurd (hc _ h) (by decide)) (by simp [l2]; omega)
  rcases hs with rfl | rfl
  · have : '-' ∈ ds := by
      rw [List.nil_append] at he
      rw [← he]
      simp
    exact absurd (hd _ this).1 (by decide)
  · obtain ⟨c, r, hr⟩ := List.exists_cons_of_ne_nil (natRepr_ne_nil y)
    rw [hr] at he
    simp only [List.cons_append, List.cons.injEq] at he
    obtain ⟨v, hv⟩ := natRepr_digits y c (by rw [hr]; simp)
    rw [he.1, show digitVal '-' = none by decide] at hv
    cases hv

end Clock

/-! ## C83 -/

/-- **C83, times.** The text of a time fits the type of the schema exactly if its year has
four digits, where only the year or the month is written, and its offset is at most 14
hours, where the time of day is written. -/
theorem C83_times {k : KmlDateTime} (hv : k.dt.Valid) :
    MomentText k.toStr ↔ (k.res = .year ∨ k.res = .yearMonth → 1000 ≤ k.dt.day.y) ∧
      (k.res = .datetime → ∀ d t o, k.dt = .dt d t → t.off = some o → -840 ≤ o ∧ o ≤ 840) := by
  constructor
  · intro h
    refine ⟨fun hr => Nat.le_of_not_lt fun hy => ?_, fun hr d t o hk ho => ?_⟩
    · rcases hr with hr | hr
      · simp only [KmlDateTime.toStr, hr] at h
        have := natRepr_length_le (w := 3) (by omega) hy
        have := (Clock.moment_length h).1
        omega
      · simp only [KmlDateTime.toStr, hr] at h
        refine Clock.not_month hy ?_ h
        cases hk : k.dt with
        | date d => rw [hk] at hv; have := hv.2.2.2.1; simp only [Moment.day]; omega
        | dt d t => rw [hk] at hv; have := hv.1.2.2.2.1; simp only [Moment.day]; omega
    · simp only [KmlDateTime.toStr, hr, hk, Moment.iso] at h
      rw [hk] at hv
      have h2 := hv.2.2.2.2.2 o ho
      have he := Clock.isoDateTime_off d t (some o)
      rw [← ho] at he
      have he : isoDateTime d t = isoDateTime d { t with off := none } ++ isoOff (some o) := by
        rw [← ho]; exact he
      rw [he] at h
      exact Clock.moment_zone h2.1 h2.2 h
  · rintro ⟨h1, h2⟩
    by_cases hr : k.res = .datetime
    · exact momentText_toStr hv h1 (h2 hr)
    · have : k.toStr = (KmlDateTime.mk (.date k.dt.day) k.res).toStr := by
        cases hk : k.res <;> simp_all [KmlDateTime.toStr, Moment.day]
      rw [this]
      refine momentText_toStr ?_ h1 (by intro d t o h; cases h)
      cases hk : k.dt with
      | date d => rw [hk] at hv; exact hv
      | dt d t => rw [hk] at hv; exact hv.1

/-- **C83, minutes.** For offsets of whole minutes, `awareStr` is the text of C20. -/
theorem C83_minutes (d : Date) (t : Time) (o : Int) :
    awareStr d t (o * 60000000) = isoDateTime d { t with off := some o } := by
  rw [awareStr, isoOffset_minutes, Clock.isoDateTime_off d t (some o)]

/-- **C83, seconds.** The text of an aware `datetime` fits the type of the schema exactly if
the offset is of whole minutes and at most 14 hours. -/
theorem C83_seconds {d : Date} {t : Time} (hd : d.Valid) (ht : t.Valid) {o : Int} (h1 : -86400000000 < o) (h2 : o < 86400000000) :
    MomentText (awareStr d t o) ↔ o % 60000000 = 0 ∧ -50400000000 ≤ o ∧ o ≤ 50400000000 := by
  by_cases hm : o % 60000000 = 0
  · obtain ⟨i, rfl⟩ : ∃ i, o = i * 60000000 := ⟨o / 60000000, by omega⟩
    rw [C83_minutes]
    have hv : (KmlDateTime.mk (.dt d { t with off := some i }) .datetime).dt.Valid :=
      ⟨hd, ht.1, ht.2.1, ht.2.2.1, ht.2.2.2.1, fun o ho => by cases ho; omega⟩
    have := C83_times hv
    simp only [KmlDateTime.toStr, Moment.iso] at this
    rw [this]
    constructor
    · rintro ⟨_, h⟩
      have := h trivial d _ i rfl rfl
      omega
    · rintro ⟨_, h⟩
      refine ⟨by simp, fun _ d' t' o' he ho => ?_⟩
      cases he
      cases ho
      omega
  · refine ⟨fun h => ?_, fun h => absurd h.1 hm⟩
    have k1 := Clock.naive_colons d t
    have k2 := Clock.offset_colons o
    rw [if_neg (by omega)] at k2
    have := Clock.moment_colons h
    simp only [awareStr, Clock.colons, List.count_append] at *
    omega

/-- Midnight of 1 January 1970 in Monrovia. -/
example : awareStr ⟨1970, 1, 1⟩ ⟨0, 0, 0, 0, none⟩ (-2670000000) = s% "1970-01-01T00:00:00-00:44:30" ∧
    awareStr ⟨1970, 1, 1⟩ ⟨0, 0, 0, 5, none⟩ 1500000 = s% "1970-01-01T00:00:00.000005+00:00:01.500000" := by
  decide +kernel

/-- **C83, finding.** A time with the offset of `Africa/Monrovia` before 1972, 44 minutes and
30 seconds, is written as a text which the schema rejects. -/
theorem C83_monrovia : ¬ MomentText (awareStr ⟨1970, 1, 1⟩ ⟨0, 0, 0, 0, none⟩ (-2670000000)) := by
  rw [C83_seconds (by decide) ⟨by decide, by decide, by decide, by decide, by intro o h; cases h⟩ (by decide) (by decide)]
  decide

/-- Both sides of `C83_times` are possible. -/
example : MomentText (KmlDateTime.toStr ⟨.dt ⟨2024, 2, 29⟩ ⟨1, 2, 3, 0, some (-840)⟩, .datetime⟩) ∧
    ¬ MomentText (KmlDateTime.toStr ⟨.dt ⟨2024, 2, 29⟩ ⟨1, 2, 3, 0, some 841⟩, .datetime⟩) ∧
    ¬ MomentText (KmlDateTime.toStr ⟨.date ⟨999, 1, 1⟩, .year⟩) := by
  have valid : ∀ o : Int, -1440 < o ∧ o < 1440 →
      (KmlDateTime.mk (.dt ⟨2024, 2, 29⟩ ⟨1, 2, 3, 0, some o⟩) .datetime).dt.Valid := fun o ho =>
    ⟨by decide, (by simp), (by simp), (by simp), (by simp), fun o' h => by cases h; exact ho⟩
  refine ⟨(C83_times (valid _ (by decide))).mpr ⟨by simp, ?_⟩, fun h => ?_, fun h => ?_⟩
  · intro _ d t o h1 h2
    cases h1
    cases h2
    decide
  · have := ((C83_times (valid _ (by decide))).mp h).2 rfl _ _ _ rfl rfl
    omega
  · have := ((C83_times (show (KmlDateTime.mk (.date ⟨999, 1, 1⟩) .year).dt.Valid from (by decide : Date.Valid ⟨999, 1, 1⟩))).mp h).1 (.inl rfl)
    revert this
    decide

end Verif
