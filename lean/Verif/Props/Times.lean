import Verif.Spec.Times
import Verif.ExtInst

/-!
# C20, C21, C22: dates
-/

set_option linter.unusedSectionVars false
set_option linter.unusedSimpArgs false

namespace Verif

open Spec

variable {F : Type} [PyExt F] [LawfulExt F]

/-! ## C22 Normalisation -/

/-- The stored value is truncated to the requested resolution; a `dateTime`
resolution for a plain date becomes `date`. -/
theorem C22_normal (m : Moment) (r : Resolution) :
    (KmlDateTime.mk' m (some r)).dt = truncate r m ∧
    (KmlDateTime.mk' m (some r)).res =
      (match r, m with | .datetime, .date _ => .date | r, _ => r) := by
  cases r <;> cases m <;> simp [KmlDateTime.mk', adjustDate, truncate, Moment.day]

/-- Without a resolution nothing is truncated. -/
theorem C22_default (m : Moment) :
    KmlDateTime.mk' m none =
      ⟨m, match m with | .date _ => .date | .dt _ _ => .datetime⟩ := by
  cases m <;> simp [KmlDateTime.mk', adjustDate]

/-- A time part is stored iff the resolution is `dateTime`. -/
theorem C22_consistent (m : Moment) (r : Option Resolution) :
    (KmlDateTime.mk' m r).res = .datetime ↔ ∃ d t, (KmlDateTime.mk' m r).dt = .dt d t := by
  cases r with
  | none => rw [C22_default]; cases m <;> simp
  | some r => cases r <;> cases m <;> simp [KmlDateTime.mk', adjustDate]

/-- Normalisation is idempotent. -/
theorem C22_idempotent (m : Moment) (r : Option Resolution) :
    KmlDateTime.mk' (KmlDateTime.mk' m r).dt (some (KmlDateTime.mk' m r).res) = KmlDateTime.mk' m r := by
  cases r with
  | none => cases m <;> rfl
  | some r => cases r <;> cases m <;> rfl

/-- A valid moment stays valid. -/
theorem C22_valid (m : Moment) (hm : m.Valid) (r : Option Resolution) :
    (KmlDateTime.mk' m r).dt.Valid := by
  have key : ∀ y mo : Nat, 1 ≤ y → y ≤ 9999 → 1 ≤ mo → mo ≤ 12 → (⟨y, mo, 1⟩ : Date).Valid := by
    intro y mo h1 h2 h3 h4
    refine ⟨h1, h2, h3, h4, Nat.le_refl 1, ?_⟩
    show 1 ≤ daysInMonth y mo
    unfold daysInMonth; split <;> (try split) <;> omega
  cases r with
  | none => rw [C22_default]; exact hm
  | some r =>
    rw [(C22_normal m r).1]
    cases m with
    | date d =>
      obtain ⟨h1, h2, h3, h4, h5, h6⟩ := hm
      cases r
      · exact ⟨h1, h2, h3, h4, h5, h6⟩
      · exact ⟨h1, h2, h3, h4, h5, h6⟩
      · exact key _ _ h1 h2 h3 h4
      · exact key _ _ h1 h2 (by omega) (by omega)
    | dt d t =>
      obtain ⟨⟨h1, h2, h3, h4, h5, h6⟩, ht⟩ := hm
      cases r
      · exact ⟨⟨h1, h2, h3, h4, h5, h6⟩, ht⟩
      · exact ⟨h1, h2, h3, h4, h5, h6⟩
      · exact key _ _ h1 h2 h3 h4
      · exact key _ _ h1 h2 (by omega) (by omega)

theorem Moment.eq_refl (m : Moment) : m.eq m = true := by
  cases m with
  | date d => simp [Moment.eq]
  | dt d t => simp only [Moment.eq]; cases t.off <;> simp

theorem Moment.eq_symm (a b : Moment) : a.eq b = b.eq a := by
  cases a <;> cases b <;> try rfl
  · simp only [Moment.eq]; exact decide_eq_decide.mpr eq_comm
  · rename_i d s e t
    simp only [Moment.eq]
    cases s.off <;> cases t.off <;> simp only
    · rw [decide_eq_decide.mpr (eq_comm (a := d)), decide_eq_decide.mpr (eq_comm (a := s))]
    · exact decide_eq_decide.mpr eq_comm

theorem Moment.eq_trans {a b c : Moment} (h1 : a.eq b = true) (h2 : b.eq c = true) :
    a.eq c = true := by
  cases a with
  | date d =>
    cases b with
    | dt _ _ => simp [Moment.eq] at h1
    | date e => cases c with
      | dt _ _ => simp [Moment.eq] at h2
      | date f => simp [Moment.eq] at h1 h2 ⊢; rw [h1, h2]
  | dt d s =>
    cases b with
    | date _ => simp [Moment.eq] at h1
    | dt e t => cases c with
      | date _ => simp [Moment.eq] at h2
      | dt f u =>
        simp only [Moment.eq] at h1 h2 ⊢
        cases hs : s.off <;> cases ht : t.off <;> cases hu : u.off <;>
          simp only [hs, ht, hu, Bool.false_eq_true] at h1 h2 ⊢
        · simp only [Bool.and_eq_true, decide_eq_true_eq] at h1 h2 ⊢
          exact ⟨h1.1.trans h2.1, h1.2.trans h2.2⟩
        · simp only [decide_eq_true_eq] at h1 h2 ⊢
          exact h1.trans h2

/-- `==` on `KmlDateTime` is an equivalence relation. -/
theorem C22_eq_equiv (a b c : KmlDateTime) :
    a.eq a = true ∧ a.eq b = b.eq a ∧ (a.eq b = true → b.eq c = true → a.eq c = true) := by
  refine ⟨by simp [KmlDateTime.eq, Moment.eq_refl], ?_, ?_⟩
  · simp only [KmlDateTime.eq]
    rw [Moment.eq_symm, decide_eq_decide.mpr (eq_comm (a := a.res))]
  · simp only [KmlDateTime.eq, Bool.and_eq_true, decide_eq_true_eq]
    rintro ⟨h1, h2⟩ ⟨h3, h4⟩
    exact ⟨Moment.eq_trans h1 h3, h2.trans h4⟩

/-! ### Instants determine the calendar date -/

theorem leap_step (y : Nat) (hy : 1 ≤ y) :
    daysBeforeYear (y + 1) = daysBeforeYear y + 365 + (if isLeap y then 1 else 0) := by
  unfold daysBeforeYear isLeap
  have h400 : (y % 400 = 0) → y % 100 = 0 := by omega
  have h100 : (y % 100 = 0) → y % 4 = 0 := by omega
  by_cases h1 : y % 4 = 0 <;> by_cases h2 : y % 100 = 0 <;> by_cases h3 : y % 400 = 0 <;>
    simp [h1, h2, h3] <;> omega

theorem daysBeforeYear_mono {a b : Nat} (ha : 1 ≤ a) (hab : a < b) :
    daysBeforeYear a + 365 + (if isLeap a then 1 else 0) ≤ daysBeforeYear b := by
  induction b with
  | zero => omega
  | succ b ih =>
    by_cases h : a = b
    · subst h; rw [leap_step a ha]; exact Nat.le_refl _
    · have := ih (by omega)
      have := leap_step b (by omega)
      omega

theorem daysBeforeMonth_mono {y a b : Nat} (ha : 1 ≤ a) (hab : a < b) :
    daysBeforeMonth y a + daysInMonth y a ≤ daysBeforeMonth y b := by
  induction b with
  | zero => omega
  | succ b ih =>
    simp only [daysBeforeMonth]
    by_cases h : a = b
    · subst h; rw [if_neg (by omega)]; exact Nat.le_refl _
    · have := ih (by omega)
      omega

theorem daysBeforeMonth_end (y : Nat) :
    daysBeforeMonth y 13 = 365 + (if isLeap y then 1 else 0) := by
  simp [daysBeforeMonth, daysInMonth]
  split <;> rfl

/-- Distinct valid dates have distinct ordinals. -/
theorem ordinal_inj {a b : Date} (ha : a.Valid) (hb : b.Valid) (h : a.ordinal = b.ordinal) : a = b := by
  obtain ⟨a1, a2, a3, a4, a5, a6⟩ := ha
  obtain ⟨b1, b2, b3, b4, b5, b6⟩ := hb
  unfold Date.ordinal at h
  have inyear : ∀ (d : Date), 1 ≤ d.m → d.m ≤ 12 → d.d ≤ daysInMonth d.y d.m →
      daysBeforeMonth d.y d.m + d.d ≤ 365 + (if isLeap d.y then 1 else 0) := by
    intro d h1 h2 h3
    have := daysBeforeMonth_mono (y := d.y) (a := d.m) (b := 13) h1 (by omega)
    rw [daysBeforeMonth_end] at this
    omega
  have ia := inyear a a3 a4 a6
  have ib := inyear b b3 b4 b6
  have hy : a.y = b.y := by
    rcases Nat.lt_trichotomy a.y b.y with hlt | heq | hgt
    · have := daysBeforeYear_mono a1 hlt; omega
    · exact heq
    · have := daysBeforeYear_mono b1 hgt; omega
  rw [hy] at h a6
  have hm : a.m = b.m := by
    rcases Nat.lt_trichotomy a.m b.m with hlt | heq | hgt
    · have := daysBeforeMonth_mono (y := b.y) a3 hlt; omega
    · exact heq
    · have := daysBeforeMonth_mono (y := b.y) b3 hgt; omega
  rw [hm] at h
  have hd : a.d = b.d := by omega
  cases a; cases b; simp_all

/-- Equality is exactly equality of the normalised values and resolutions, for
values with the same UTC offset (aware values with different offsets are equal
iff they denote the same instant, which is how `utcInstant` is defined). -/
theorem C22_eq_iff (a b : KmlDateTime) (ha : a.dt.Valid) (hb : b.dt.Valid)
    (hoff : ∀ d s e t, a.dt = .dt d s → b.dt = .dt e t → s.off = t.off) :
    a.eq b = true ↔ a = b := by
  constructor
  · intro h
    simp only [KmlDateTime.eq, Bool.and_eq_true, decide_eq_true_eq] at h
    obtain ⟨h1, h2⟩ := h
    have : a.dt = b.dt := by
      cases hda : a.dt with
      | date d =>
        rw [hda] at h1
        cases hdb : b.dt with
        | date e => rw [hdb] at h1; simp [Moment.eq] at h1; rw [h1]
        | dt e t => rw [hdb] at h1; simp [Moment.eq] at h1
      | dt d s =>
        cases hdb : b.dt with
        | date e => rw [hda, hdb] at h1; simp [Moment.eq] at h1
        | dt e t =>
          have ho := hoff d s e t hda hdb
          rw [hda, hdb] at h1
          rw [hda] at ha
          rw [hdb] at hb
          simp only [Moment.eq] at h1
          cases hs : s.off with
          | none =>
            have ht : t.off = none := by rw [← ho, hs]
            simp only [hs, ht, Bool.and_eq_true, decide_eq_true_eq] at h1
            rw [h1.1, h1.2]
          | some o =>
            have ht : t.off = some o := by rw [← ho, hs]
            simp only [hs, ht, decide_eq_true_eq] at h1
            unfold utcInstant at h1
            obtain ⟨hd, s1, s2, s3, s4, _⟩ := ha
            obtain ⟨he, t1, t2, t3, t4, _⟩ := hb
            have : (d.ordinal * 86400 + s.h * 3600 + s.mi * 60 + s.s) * 1000000 + s.us =
                (e.ordinal * 86400 + t.h * 3600 + t.mi * 60 + t.s) * 1000000 + t.us := by omega
            have e1 : d = e := ordinal_inj hd he (by omega)
            have e2 : s.h = t.h := by omega
            have e3 : s.mi = t.mi := by omega
            have e4 : s.s = t.s := by omega
            have e5 : s.us = t.us := by omega
            cases s; cases t; simp_all
    cases a; cases b; simp_all
  · rintro rfl; exact (C22_eq_equiv a a a).1

example : KmlDateTime.mk' (.dt ⟨2024, 2, 29⟩ ⟨13, 5, 7, 0, some 60⟩) (some .yearMonth) =
    ⟨.date ⟨2024, 2, 1⟩, .yearMonth⟩ := by decide

/-- 13:00+01:00 equals 12:00Z but is not the same value. -/
example : KmlDateTime.eq ⟨.dt ⟨2024, 2, 29⟩ ⟨13, 0, 0, 0, some 60⟩, .datetime⟩
    ⟨.dt ⟨2024, 2, 29⟩ ⟨12, 0, 0, 0, some 0⟩, .datetime⟩ = true := by decide

/-! ## C21 Lexical forms -/

theorem take2_iff (s : Str) (n : Nat) (r : Str) :
    take2 s = some (n, r) ↔ ∃ u, s = u ++ r ∧ TwoDecimals u n := by
  constructor
  · intro h
    match s, h with
    | a :: b :: r', h =>
      simp only [take2] at h
      split at h
      · rename_i x y hx hy
        simp only [Option.some.injEq, Prod.mk.injEq] at h
        obtain ⟨rfl, rfl⟩ := h
        obtain ⟨h1, z, h2, h3⟩ := decimalVal_iff.mp hx
        obtain ⟨h4, w, h5, h6⟩ := decimalVal_iff.mp hy
        exact ⟨[a, b], rfl, a, b, x, y, z, w, rfl, h1, h4, h2, h5, h3, h6, by omega⟩
      · cases h
  · rintro ⟨u, rfl, a, b, x, y, z, w, rfl, h1, h4, h2, h5, h3, h6, rfl⟩
    have hx : decimalVal a = some x := decimalVal_iff.mpr ⟨h1, z, h2, h3⟩
    have hy : decimalVal b = some y := decimalVal_iff.mpr ⟨h4, w, h5, h6⟩
    simp only [List.cons_append, List.nil_append, take2, hx, hy]
    simp; omega

theorem take4_iff (s : Str) (n : Nat) (r : Str) :
    take4 s = some (n, r) ↔ ∃ u, s = u ++ r ∧ FourDecimals u n := by
  constructor
  · intro h
    unfold take4 at h
    split at h
    · cases h
    · rename_i a r1 h1
      split at h
      · cases h
      · rename_i b r2 h2
        simp only [Option.some.injEq, Prod.mk.injEq] at h
        obtain ⟨rfl, rfl⟩ := h
        obtain ⟨u, rfl, hu⟩ := (take2_iff _ _ _).mp h1
        obtain ⟨v, rfl, hv⟩ := (take2_iff _ _ _).mp h2
        exact ⟨u ++ v, by simp, u, v, a, b, rfl, hu, hv, by omega⟩
  · rintro ⟨_, rfl, u, v, x, y, rfl, hu, hv, rfl⟩
    unfold take4
    rw [(take2_iff _ x (v ++ r)).mpr ⟨u, by simp, hu⟩]
    simp only
    rw [(take2_iff _ y r).mpr ⟨v, rfl, hv⟩]
    simp; omega

theorem twoDecimals_vals {u : Str} {n : Nat} (h : TwoDecimals u n) :
    ∃ a b x y, u = [a, b] ∧ decimalVal a = some x ∧ decimalVal b = some y := by
  obtain ⟨a, b, x, y, z, w, rfl, h1, h4, h2, h5, h3, h6, _⟩ := h
  exact ⟨a, b, x, y, rfl, decimalVal_iff.mpr ⟨h1, z, h2, h3⟩, decimalVal_iff.mpr ⟨h4, w, h5, h6⟩⟩

/-- Digits of ASCII are digits. -/
theorem twoDigits_decimals {u : Str} {n : Nat} (h : TwoDigits u n) : TwoDecimals u n := by
  obtain ⟨a, b, x, y, rfl, hx, hy, hn⟩ := h
  obtain ⟨h1, z, h2, h3⟩ := decimalVal_iff.mp (decimalVal_digit hx)
  obtain ⟨h4, w, h5, h6⟩ := decimalVal_iff.mp (decimalVal_digit hy)
  exact ⟨a, b, x, y, z, w, rfl, h1, h4, h2, h5, h3, h6, hn⟩

theorem fourDigits_decimals {u : Str} {n : Nat} (h : FourDigits u n) : FourDecimals u n := by
  obtain ⟨u, v, x, y, rfl, hu, hv, hn⟩ := h
  exact ⟨u, v, x, y, rfl, twoDigits_decimals hu, twoDigits_decimals hv, hn⟩

theorem dropDash_of_ne {s : Str} (h : ∀ r, s ≠ '-' :: r) : dropDash s = s := by
  unfold dropDash
  split
  · rename_i r; exact absurd rfl (h r)
  · rfl

/-- The tail after a dash-or-nothing starting with digits or end. -/
theorem dropDash_opt {d1 s : Str} (hd : OptDash d1) (h : ∀ r, s ≠ '-' :: r) : dropDash (d1 ++ s) = s := by
  rcases hd with rfl | rfl
  · exact dropDash_of_ne h
  · rfl

theorem digits_not_dash {u s : Str} {n : Nat} (h : TwoDecimals u n) : ∀ r, u ++ s ≠ '-' :: r := by
  obtain ⟨a, b, x, _, rfl, hx, _⟩ := twoDecimals_vals h
  intro r hr
  simp only [List.cons_append, List.nil_append, List.cons.injEq] at hr
  rw [hr.1, show decimalVal '-' = none by decide] at hx
  cases hx

theorem nl_not_dash {nl : Str} (h : nl = [] ∨ nl = ['\n']) : ∀ r, nl ≠ '-' :: r := by
  rcases h with rfl | rfl <;> simp

theorem opt2_take {s u : Str} {n : Nat} {r : Str} (hs : s = u ++ r) (h : TwoDecimals u n) :
    opt2 s = (some n, r) := by
  unfold opt2; rw [(take2_iff s n r).mpr ⟨u, hs, h⟩]

theorem opt2_nl {nl : Str} (h : nl = [] ∨ nl = ['\n']) : opt2 nl = (none, nl) := by
  rcases h with rfl | rfl <;> rfl

theorem dropDash_spec (s : Str) : ∃ d, OptDash d ∧ s = d ++ dropDash s := by
  unfold dropDash
  split
  · exact ⟨['-'], Or.inr rfl, rfl⟩
  · exact ⟨[], Or.inl rfl, rfl⟩

theorem opt2_spec (s : Str) : ∃ u, OptTwo u (opt2 s).1 ∧ s = u ++ (opt2 s).2 := by
  unfold opt2
  cases h : take2 s with
  | none => exact ⟨[], rfl, rfl⟩
  | some p =>
    obtain ⟨n, r⟩ := p
    obtain ⟨u, hu, ht⟩ := (take2_iff s n r).mp h
    exact ⟨u, ht, hu⟩

/-- What the matcher returns is a split according to the pattern. -/
theorem ymdMatch_sound {s : Str} {y : Nat} {m d : Option Nat} (h : ymdMatch s = some (y, m, d)) :
    DatePattern s y m d := by
  unfold ymdMatch at h
  split at h
  · cases h
  · rename_i y' r hr
    simp only at h
    split at h
    · rename_i hnl
      simp only [Option.some.injEq, Prod.mk.injEq] at h
      obtain ⟨rfl, rfl, rfl⟩ := h
      obtain ⟨Y, rfl, hY⟩ := (take4_iff s y' r).mp hr
      obtain ⟨d1, hd1, e1⟩ := dropDash_spec r
      obtain ⟨M, hM, e2⟩ := opt2_spec (dropDash r)
      obtain ⟨d2, hd2, e3⟩ := dropDash_spec (opt2 (dropDash r)).2
      obtain ⟨D, hD, e4⟩ := opt2_spec (dropDash (opt2 (dropDash r)).2)
      refine ⟨Y, d1, M, d2, D, _, ?_, hY, hd1, hM, hd2, hD, hnl⟩
      have : r = d1 ++ (M ++ (d2 ++ (D ++ (opt2 (dropDash (opt2 (dropDash r)).2)).2))) := by
        rw [← e4, ← e3, ← e2, ← e1]
      simp only [List.append_assoc]
      rw [← this]
    · cases h

/-- With a month group the split is found as it is. -/
theorem ymdMatch_month {s : Str} {y m : Nat} {d : Option Nat} (h : DatePattern s y (some m) d) :
    ymdMatch s = some (y, some m, d) := by
  obtain ⟨Y, d1, M, d2, D, nl, rfl, hY, hd1, hM, hd2, hD, hnl⟩ := h
  have hM' : TwoDecimals M m := hM
  have e0 : take4 (Y ++ d1 ++ M ++ d2 ++ D ++ nl) = some (y, d1 ++ (M ++ (d2 ++ (D ++ nl)))) :=
    (take4_iff _ _ _).mpr ⟨Y, by simp, hY⟩
  have e1 : dropDash (d1 ++ (M ++ (d2 ++ (D ++ nl)))) = M ++ (d2 ++ (D ++ nl)) :=
    dropDash_opt hd1 (digits_not_dash hM')
  have e2 : opt2 (M ++ (d2 ++ (D ++ nl))) = (some m, d2 ++ (D ++ nl)) := opt2_take rfl hM'
  unfold ymdMatch
  simp only [e0, e1, e2]
  cases d with
  | none =>
    have hD' : D = [] := hD
    subst hD'
    have e3 : dropDash (d2 ++ ([] ++ nl)) = nl := dropDash_opt hd2 (nl_not_dash hnl)
    simp only [e3, opt2_nl hnl, hnl, if_true]
  | some d =>
    have hD' : TwoDecimals D d := hD
    have e3 : dropDash (d2 ++ (D ++ nl)) = D ++ nl := dropDash_opt hd2 (digits_not_dash hD')
    have e4 : opt2 (D ++ nl) = (some d, nl) := opt2_take rfl hD'
    simp only [e3, e4, hnl, if_true]

/-- Any split yields a match. -/
theorem ymdMatch_complete {s : Str} {y : Nat} {m d : Option Nat} (h : DatePattern s y m d) :
    ∃ m' d', ymdMatch s = some (y, m', d') := by
  cases m with
  | some m => exact ⟨_, _, ymdMatch_month h⟩
  | none =>
    obtain ⟨Y, d1, M, d2, D, nl, rfl, hY, hd1, hM, hd2, hD, hnl⟩ := h
    have hM' : M = [] := hM
    subst hM'
    cases d with
    | none =>
      have hD' : D = [] := hD
      subst hD'
      have e0 : take4 (Y ++ d1 ++ [] ++ d2 ++ [] ++ nl) = some (y, d1 ++ (d2 ++ nl)) :=
        (take4_iff _ _ _).mpr ⟨Y, by simp, hY⟩
      unfold ymdMatch
      simp only [e0]
      rcases hd1 with rfl | rfl
      · have e1 : dropDash ([] ++ (d2 ++ nl)) = nl := by
          rw [List.nil_append]; exact dropDash_opt hd2 (nl_not_dash hnl)
        simp only [e1, opt2_nl hnl, dropDash_of_ne (nl_not_dash hnl), hnl, if_true]
        exact ⟨_, _, rfl⟩
      · have e1 : dropDash (['-'] ++ (d2 ++ nl)) = d2 ++ nl := rfl
        simp only [e1]
        have e2 : opt2 (d2 ++ nl) = (none, d2 ++ nl) := by
          rcases hd2 with rfl | rfl
          · exact opt2_nl hnl
          · have : take2 (['-'] ++ nl) = none := take2_none_head (by decide)
            unfold opt2; rw [this]
        simp only [e2, dropDash_opt hd2 (nl_not_dash hnl), opt2_nl hnl, hnl, if_true]
        exact ⟨_, _, rfl⟩
    | some d =>
      have hD' : TwoDecimals D d := hD
      by_cases hboth : d1 = ['-'] ∧ d2 = ['-']
      · obtain ⟨rfl, rfl⟩ := hboth
        have e0 : take4 (Y ++ ['-'] ++ [] ++ ['-'] ++ D ++ nl) = some (y, '-' :: '-' :: (D ++ nl)) :=
          (take4_iff _ _ _).mpr ⟨Y, by simp, hY⟩
        have e2 : opt2 ('-' :: (D ++ nl)) = (none, '-' :: (D ++ nl)) := by
          have : take2 ('-' :: (D ++ nl)) = none := take2_none_head (by decide)
          unfold opt2; rw [this]
        unfold ymdMatch
        simp only [e0, dropDash_dash, e2, opt2_take rfl hD', hnl, if_true]
        exact ⟨_, _, rfl⟩
      · -- at most one dash: the digits are taken as the month
        have hdash : ∃ d0, OptDash d0 ∧ d1 ++ d2 = d0 := by
          rcases hd1 with rfl | rfl <;> rcases hd2 with rfl | rfl
          · exact ⟨[], Or.inl rfl, rfl⟩
          · exact ⟨['-'], Or.inr rfl, rfl⟩
          · exact ⟨['-'], Or.inr rfl, rfl⟩
          · exact absurd ⟨rfl, rfl⟩ hboth
        obtain ⟨d0, h0, e⟩ := hdash
        refine ⟨some d, none, ymdMatch_month ⟨Y, d0, D, [], [], nl, ?_, hY, h0, hD', Or.inl rfl, rfl, hnl⟩⟩
        simp only [List.append_nil, ← e]
        simp

theorem ymdMatch_year_unique {s : Str} {y y' : Nat} {m d m' d' : Option Nat}
    (h : DatePattern s y m d) (h' : DatePattern s y' m' d') : y = y' := by
  obtain ⟨m1, d1, e1⟩ := ymdMatch_complete h
  obtain ⟨m2, d2, e2⟩ := ymdMatch_complete h'
  rw [e1] at e2
  simp only [Option.some.injEq, Prod.mk.injEq] at e2
  exact e2.1

/-- The texts handled as dates are exactly those of the documented pattern, and
the groups are those of the greedy match: a month group is used whenever some
split has one. -/
theorem C21_pattern (s : Str) :
    ((∃ r, ymdMatch s = some r) ↔ ∃ y m d, DatePattern s y m d) ∧
    (∀ y m d, ymdMatch s = some (y, some m, d) ↔ DatePattern s y (some m) d) ∧
    (∀ y d, ymdMatch s = some (y, none, d) →
      DatePattern s y none d ∧ ∀ m' d', ¬DatePattern s y (some m') d') := by
  refine ⟨⟨?_, ?_⟩, fun y m d => ⟨ymdMatch_sound, ymdMatch_month⟩, fun y d h => ⟨ymdMatch_sound h, ?_⟩⟩
  · rintro ⟨⟨y, m, d⟩, h⟩; exact ⟨y, m, d, ymdMatch_sound h⟩
  · rintro ⟨y, m, d, h⟩
    obtain ⟨m', d', e⟩ := ymdMatch_complete h
    exact ⟨_, e⟩
  · intro m' d' h'
    rw [ymdMatch_month h'] at h
    simp at h

theorem mkDate_some {y m d : Nat} (h : (⟨y, m, d⟩ : Date).Valid) : mkDate y m d = some ⟨y, m, d⟩ := by
  simp [mkDate, h]

theorem mkDate_none {y m d : Nat} (h : ¬(⟨y, m, d⟩ : Date).Valid) : mkDate y m d = none := by
  simp [mkDate, h]

theorem twoDigits_pad {n : Nat} (h : n < 100) : TwoDigits (pad 2 n) n :=
  ⟨_, _, n / 10, n % 10, pad_two h, digitChar_val (by omega), digitChar_val (by omega), by omega⟩

theorem fourDigits_pad {n : Nat} (h : n < 10000) : FourDigits (pad 4 n) n :=
  ⟨_, _, n / 100, n % 100, pad_four, twoDigits_pad (by omega), twoDigits_pad (by omega), by omega⟩

/-- `YYYY-MM-DD` is that date with resolution `date`; an impossible month or day
raises `ValueError`. -/
theorem C21_date (y m d : Nat) (hy : y < 10000) (hm : m < 100) (hd : d < 100) :
    KmlDateTime.parse (PyExt.arrowGet F) (pad 4 y ++ ['-'] ++ pad 2 m ++ ['-'] ++ pad 2 d) =
      if (⟨y, m, d⟩ : Date).Valid then some ⟨.date ⟨y, m, d⟩, .date⟩ else none := by
  have hp : DatePattern (pad 4 y ++ ['-'] ++ pad 2 m ++ ['-'] ++ pad 2 d) y (some m) (some d) :=
    ⟨_, _, _, _, _, [], by simp, fourDigits_decimals (fourDigits_pad hy), Or.inr rfl, twoDigits_decimals (twoDigits_pad hm), Or.inr rfl,
      twoDigits_decimals (twoDigits_pad hd), Or.inl rfl⟩
  unfold KmlDateTime.parse
  rw [ymdMatch_month hp]
  simp only [Option.getD_some]
  split
  · rename_i h
    by_cases hv : (⟨y, m, d⟩ : Date).Valid
    · rw [mkDate_some hv] at h; cases h
    · rw [if_neg hv]
  · rename_i dt h
    by_cases hv : (⟨y, m, d⟩ : Date).Valid
    · rw [mkDate_some hv] at h
      simp only [Option.some.injEq] at h; subst h
      rw [if_pos hv]; rfl
    · rw [mkDate_none hv] at h; cases h

/-- `YYYY-MM` is the first of that month with resolution `gYearMonth`. -/
theorem C21_yearMonth (y m : Nat) (hy : y < 10000) (hm : m < 100) :
    KmlDateTime.parse (PyExt.arrowGet F) (pad 4 y ++ ['-'] ++ pad 2 m) =
      if 1 ≤ y ∧ 1 ≤ m ∧ m ≤ 12 then some ⟨.date ⟨y, m, 1⟩, .yearMonth⟩ else none := by
  have hp : DatePattern (pad 4 y ++ ['-'] ++ pad 2 m) y (some m) none :=
    ⟨_, _, _, [], [], [], by simp, fourDigits_decimals (fourDigits_pad hy), Or.inr rfl, twoDigits_decimals (twoDigits_pad hm), Or.inl rfl,
      rfl, Or.inl rfl⟩
  have hiff : (⟨y, m, 1⟩ : Date).Valid ↔ 1 ≤ y ∧ 1 ≤ m ∧ m ≤ 12 := by
    unfold Date.Valid
    constructor
    · intro h; exact ⟨h.1, h.2.2.1, h.2.2.2.1⟩
    · rintro ⟨h1, h2, h3⟩
      refine ⟨h1, (by omega : y ≤ 9999), h2, h3, Nat.le_refl 1, ?_⟩
      show 1 ≤ daysInMonth y m
      unfold daysInMonth; split <;> (try split) <;> omega
  unfold KmlDateTime.parse
  rw [ymdMatch_month hp]
  simp only [Option.getD_some, Option.getD_none]
  by_cases hv : (⟨y, m, 1⟩ : Date).Valid
  · rw [mkDate_some hv, if_pos (hiff.mp hv)]; rfl
  · rw [mkDate_none hv, if_neg (fun h => hv (hiff.mpr h))]

theorem ymdMatch_year {y : Nat} (hy : y < 10000) : ymdMatch (pad 4 y) = some (y, none, none) := by
  unfold ymdMatch
  have := take4_pad hy []
  rw [List.append_nil] at this
  rw [this]
  rfl

/-- `YYYY` is January 1st of that year with resolution `gYear`. -/
theorem C21_year (y : Nat) (hy : y < 10000) :
    KmlDateTime.parse (PyExt.arrowGet F) (pad 4 y) =
      if 1 ≤ y then some ⟨.date ⟨y, 1, 1⟩, .year⟩ else none := by
  have hiff : (⟨y, 1, 1⟩ : Date).Valid ↔ 1 ≤ y := by
    unfold Date.Valid
    constructor
    · intro h; exact h.1
    · intro h1
      exact ⟨h1, (by omega : y ≤ 9999), (by decide : 1 ≤ 1), (by decide : 1 ≤ 12), Nat.le_refl 1, by simp [daysInMonth]⟩
  unfold KmlDateTime.parse
  rw [ymdMatch_year hy]
  simp only [Option.getD_none]
  by_cases hv : (⟨y, 1, 1⟩ : Date).Valid
  · rw [mkDate_some hv, if_pos (hiff.mp hv)]; rfl
  · rw [mkDate_none hv, if_neg (fun h => hv (hiff.mpr h))]

/-- Texts outside the pattern are handed to `arrow` and get resolution
`dateTime`. -/
theorem C21_arrow (s : Str) (h : ∀ y m d, ¬DatePattern s y m d) :
    KmlDateTime.parse (PyExt.arrowGet F) s =
      (PyExt.arrowGet F s).map fun p => ⟨.dt p.1 p.2, .datetime⟩ := by
  have : ymdMatch s = none := by
    cases hm : ymdMatch s with
    | none => rfl
    | some r => obtain ⟨y, m, d⟩ := r; exact absurd (ymdMatch_sound hm) (h y m d)
  unfold KmlDateTime.parse
  rw [this]
  simp only
  cases PyExt.arrowGet F s with
  | none => rfl
  | some p => rfl

/-- The sloppy forms are accepted too. -/
example : KmlDateTime.parse (PyExt.arrowGet Fix) (s% "2000-") = some ⟨.date ⟨2000, 1, 1⟩, .year⟩ ∧
    KmlDateTime.parse (PyExt.arrowGet Fix) (s% "200002") = some ⟨.date ⟨2000, 2, 1⟩, .yearMonth⟩ ∧
    KmlDateTime.parse (PyExt.arrowGet Fix) (s% "2000--07") = some ⟨.date ⟨2000, 1, 1⟩, .year⟩ ∧
    KmlDateTime.parse (PyExt.arrowGet Fix) (s% "2000-13") = none := by
  decide

/-! ## C20 Round trip -/

theorem day_lt {d : Date} (h : d.Valid) : d.d < 100 := by
  obtain ⟨h1, h2, h3, h4, h5, h6⟩ := h
  have : daysInMonth d.y d.m ≤ 31 := by unfold daysInMonth; split <;> (try split) <;> omega
  omega

theorem isoDate_eq (d : Date) :
    isoDate d = pad 4 d.y ++ ['-'] ++ pad 2 d.m ++ ['-'] ++ pad 2 d.d := by
  simp [isoDate]

/-- The text of a `KmlDateTime` is the ISO 8601 text of its year, month, date or date and
time, as its resolution says. -/
theorem C20_text (m : Moment) (hm : m.Valid) (r : Option Resolution) (k : KmlDateTime) (hk : k = KmlDateTime.mk' m r) :
    match k.res with
    | .year => 1000 ≤ k.dt.day.y → FourDigits k.toStr k.dt.day.y
    | .yearMonth => 1000 ≤ k.dt.day.y →
      ∃ Y M, k.toStr = Y ++ '-' :: M ∧ FourDigits Y k.dt.day.y ∧ TwoDigits M k.dt.day.m
    | .date => IsoDate k.dt.day k.toStr
    | .datetime => ∃ d t, k.dt = .dt d t ∧ IsoDateTime d t k.toStr := by
  have hv : k.dt.Valid := hk ▸ C22_valid m hm r
  have hcons : k.res = .datetime ↔ ∃ d t, k.dt = .dt d t := hk ▸ C22_consistent m r
  obtain ⟨dt, res⟩ := k
  simp only at hv hcons ⊢
  have hday : dt.day.Valid := by
    cases dt with
    | date d => exact hv
    | dt d t => exact hv.1
  obtain ⟨h1, h2, h3, h4, h5, h6⟩ := hday
  cases res with
  | year =>
    intro h
    show FourDigits (natRepr _) _
    rw [natRepr_four h]
    exact fourDigits_iff.mpr ⟨by omega, rfl⟩
  | yearMonth =>
    intro h
    refine ⟨_, _, rfl, ?_, twoDigits_iff.mpr ⟨by omega, rfl⟩⟩
    rw [natRepr_four h]
    exact fourDigits_iff.mpr ⟨by omega, rfl⟩
  | date => exact (isoDate_iff ⟨h1, h2, h3, h4, h5, h6⟩).mpr rfl
  | datetime =>
    obtain ⟨d, t, rfl⟩ := hcons.mp rfl
    exact ⟨d, t, rfl, (isoDateTime_iff hv.1 hv.2).mpr rfl⟩

/-- A time in the southern Pacific. -/
example : (KmlDateTime.mk' (.dt ⟨2024, 2, 29⟩ ⟨23, 59, 59, 123456, some (-570)⟩) none).toStr =
    s% "2024-02-29T23:59:59.123456-09:30" := by decide

/-- Every `KmlDateTime` there is (built by the constructor from a valid date or
datetime) is read back from its own text, if a `gYear`/`gYearMonth` value has a
four digit year and a `dateTime` value carries a UTC offset. -/
theorem C20_roundtrip (m : Moment) (hm : m.Valid) (r : Option Resolution) (k : KmlDateTime)
    (hk : k = KmlDateTime.mk' m r)
    (hy : k.res = .year ∨ k.res = .yearMonth → 1000 ≤ k.dt.day.y)
    (ho : ∀ d t, k.dt = .dt d t → t.off.isSome) :
    KmlDateTime.parse (PyExt.arrowGet F) k.toStr = some k := by
  have hv : k.dt.Valid := hk ▸ C22_valid m hm r
  have hcons : k.res = .datetime ↔ ∃ d t, k.dt = .dt d t := hk ▸ C22_consistent m r
  have hid : KmlDateTime.mk' k.dt (some k.res) = k := by rw [hk]; exact C22_idempotent m r
  obtain ⟨dt, res⟩ := k
  simp only at hy ho hv hcons hid ⊢
  cases dt with
  | dt d t =>
    have hres : res = .datetime := hcons.mpr ⟨d, t, rfl⟩
    subst hres
    unfold KmlDateTime.toStr KmlDateTime.parse
    simp only [Moment.iso]
    rw [ymdMatch_isoDateTime hv.1]
    simp only [LawfulExt.arrow_iso d t _ hv.1 hv.2 (ho d t rfl) ((isoDateTime_iff hv.1 hv.2).mpr rfl)]
    rfl
  | date d =>
    have hne : res ≠ .datetime := by
      intro h; obtain ⟨_, _, h⟩ := hcons.mp h; cases h
    have hv' : d.Valid := hv
    obtain ⟨h1, h2, h3, h4, h5, h6⟩ := hv'
    cases res with
    | datetime => exact absurd rfl hne
    | date =>
      show KmlDateTime.parse _ (isoDate d) = _
      rw [isoDate_eq, C21_date d.y d.m d.d (by omega) (by omega) (day_lt hv), if_pos (show (⟨d.y, d.m, d.d⟩ : Date).Valid from hv)]
    | yearMonth =>
      show KmlDateTime.parse _ (natRepr d.y ++ '-' :: pad 2 d.m) = _
      rw [natRepr_four (show 1000 ≤ d.y from hy (Or.inr rfl))]
      have := C21_yearMonth (F := F) d.y d.m (by omega) (by omega)
      simp only [List.append_assoc, List.cons_append, List.nil_append] at this
      rw [this, if_pos ⟨h1, h3, h4⟩]
      exact congrArg some hid
    | year =>
      show KmlDateTime.parse _ (natRepr d.y) = _
      rw [natRepr_four (show 1000 ≤ d.y from hy (Or.inl rfl)), C21_year d.y (by omega), if_pos h1]
      exact congrArg some hid

/-- Non-vacuity: microseconds and a half-hour offset. -/
example : KmlDateTime.parse (PyExt.arrowGet Fix)
    (KmlDateTime.mk' (.dt ⟨2024, 2, 29⟩ ⟨23, 59, 59, 123456, some (-570)⟩) none).toStr =
    some (KmlDateTime.mk' (.dt ⟨2024, 2, 29⟩ ⟨23, 59, 59, 123456, some (-570)⟩) none) := by decide

/-- Disagreement: a naive datetime comes back as UTC, so it is not read back. -/
theorem C20_naive (d : Date) (t : Time) (hd : d.Valid) (ht : t.Valid) (hn : t.off = none) :
    KmlDateTime.parse (PyExt.arrowGet F) (KmlDateTime.mk' (.dt d t) none).toStr =
      some ⟨.dt d { t with off := some 0 }, .datetime⟩ ∧
    KmlDateTime.eq ⟨.dt d { t with off := some 0 }, .datetime⟩ (KmlDateTime.mk' (.dt d t) none) = false := by
  constructor
  · rw [C22_default]
    unfold KmlDateTime.toStr KmlDateTime.parse
    simp only [Moment.iso]
    rw [ymdMatch_isoDateTime hd]
    simp only [LawfulExt.arrow_naive d t _ hd ht hn ((isoDateTime_iff hd ht).mpr rfl)]
    rfl
  · rw [C22_default]
    simp [KmlDateTime.eq, Moment.eq, hn]

theorem natRepr_len3 {y : Nat} (h : y < 1000) : (natRepr y).length ≤ 3 :=
  natRepr_length_le (by decide) (by simpa using h)

theorem take4_len {s : Str} (h : s.length < 4) : take4 s = none := by
  cases ht : take4 s with
  | none => rfl
  | some p =>
    obtain ⟨n, r⟩ := p
    obtain ⟨u, rfl, a, b, _, _, rfl, ⟨_, _, _, _, _, _, rfl, _⟩, ⟨_, _, _, _, _, _, rfl, _⟩, _⟩ := (take4_iff s n r).mp ht
    simp at h; omega

/-- Disagreement: with `gYear` or `gYearMonth` resolution no year below 1000 is
ever read back (`strftime` does not pad it), whatever `arrow` makes of it. -/
theorem C20_small_year (d : Date) (hy1000 : d.y < 1000) (r : Resolution)
    (hr : r = .year ∨ r = .yearMonth) :
    KmlDateTime.parse (PyExt.arrowGet F) (KmlDateTime.mk' (.date d) (some r)).toStr ≠
      some (KmlDateTime.mk' (.date d) (some r)) := by
  obtain ⟨y, hdy⟩ : ∃ y, d.y = y := ⟨_, rfl⟩
  have hy : y < 1000 := hdy ▸ hy1000
  have hnone : ymdMatch (KmlDateTime.mk' (.date d) (some r)).toStr = none := by
    unfold ymdMatch
    have : take4 (KmlDateTime.mk' (.date d) (some r)).toStr = none := by
      rcases hr with rfl | rfl
      · show take4 (natRepr d.y) = none
        rw [hdy]
        exact take4_len (by have := natRepr_len3 hy; omega)
      · show take4 (natRepr d.y ++ '-' :: pad 2 d.m) = none
        rw [hdy]
        cases ht : take4 (natRepr y ++ '-' :: pad 2 d.m) with
        | none => rfl
        | some p =>
          obtain ⟨n, q⟩ := p
          obtain ⟨u, he, hu⟩ := (take4_iff _ n q).mp ht
          have hdash : '-' ∈ u := by
            obtain ⟨a, b, _, _, rfl, ⟨a1, a2, _, _, _, _, rfl, _⟩, ⟨b1, b2, _, _, _, _, rfl, _⟩, _⟩ := hu
            have hl := natRepr_len3 hy
            have hne := natRepr_ne_nil y
            match hrep : natRepr y, hl, hne with
            | [c], _, _ => rw [hrep] at he; simp at he; simp; exact Or.inr (Or.inl he.2.1)
            | [c1, c2], _, _ => rw [hrep] at he; simp at he; simp; exact Or.inr (Or.inr (Or.inl he.2.2.1))
            | [c1, c2, c3], _, _ => rw [hrep] at he; simp at he; simp; exact Or.inr (Or.inr (Or.inr he.2.2.2.1))
          obtain ⟨a, b, _, _, rfl, ha, hb, _⟩ := hu
          obtain ⟨a1, a2, x1, x2, rfl, g1, g2⟩ := twoDecimals_vals ha
          obtain ⟨b1, b2, x3, x4, rfl, g3, g4⟩ := twoDecimals_vals hb
          have hdig : decimalVal '-' = none := by decide
          simp at hdash
          rcases hdash with h | h | h | h
          · rw [← h] at g1; rw [hdig] at g1; cases g1
          · rw [← h] at g2; rw [hdig] at g2; cases g2
          · rw [← h] at g3; rw [hdig] at g3; cases g3
          · rw [← h] at g4; rw [hdig] at g4; cases g4
    rw [this]
  unfold KmlDateTime.parse
  rw [hnone]
  simp only
  split
  · simp
  · intro h
    simp only [Option.some.injEq] at h
    have := congrArg KmlDateTime.res h
    rcases hr with rfl | rfl <;> simp [KmlDateTime.mk', adjustDate] at this

/-- Non-vacuity: year 999. -/
example : (⟨999, 5, 3⟩ : Date).Valid ∧
    (KmlDateTime.mk' (.date ⟨999, 5, 3⟩) (some .year)).toStr = s% "999" := by decide

end Verif
