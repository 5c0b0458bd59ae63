import Verif.Props.Valid
import Verif.Props.Accepted
import Verif.Props.Integers

/-!
# C44: the texts

`C44_values` of `Verif/Props/Valid.lean` is about all simple types; here are its conditions
for exact numbers, a concrete case, and values that are written although they are not
values of the declared types.
-/

set_option linter.unusedSectionVars false
set_option linter.unusedSimpArgs false

namespace Verif

open Spec

/-! ## Exact numbers -/

theorem decimalText_fix (n : Int) : DecimalText (decide (n < 0)) n.natAbs 6 0 (Fix.repr ⟨some n⟩) := by
  obtain ⟨int, frac, h1, h2, h3, h4, h5, h6⟩ := decimal_parts 6 n.natAbs
  have hr : Fix.repr ⟨some n⟩ = (if n < 0 then ['-'] else []) ++ (int ++ '.' :: frac) ++ [] := by
    have : Fix.dec 6 n.natAbs = int ++ '.' :: frac := by
      have h1 : Fix.dec 6 n.natAbs = int ++ ['.'] ++ frac := h1
      rw [h1]; simp
    simp only [Fix.repr, Fix.sgn, this, decide_eq_true_eq]
    split <;> simp
  refine ⟨_, _, _, hr, ?_, ⟨int, frac, decDigits_of h3, decDigits_of h5, by simp [h2], h6.symm, h4.symm, .inl rfl⟩, .inl ⟨rfl, rfl⟩⟩
  by_cases h : n < 0 <;> simp [h, SignText]

/-- **C44** for numbers with six decimals: `n / 10^6` is a value of `double`, and of an
angle type if it is in its range. -/
theorem C44_numbers (n : Int) (t : QN) (h : (t = .q .xs (s% "double") ∨ t = .q .xs (s% "float")) ∨
    ∃ lo hi, rangeOf t = some (lo, hi) ∧ lo * 1000000 ≤ n ∧ n ≤ hi * 1000000) : Fine t (.float (⟨some n⟩ : Fix)) := by
  rcases h with h | ⟨lo, hi, hr, h1, h2⟩
  · exact lexOk_double h (padded_of (.inr ⟨_, _, _, _, decimalText_fix n⟩))
  · refine (lexOk_range hr).mpr (padded_of ⟨_, _, _, _, decimalText_fix n, ?_⟩)
    simp only [Between, Int.toNat_zero, Int.neg_zero, Nat.add_zero, Int.pow_zero, Int.mul_one, decide_eq_true_eq]
    have hp : (10 : Int) ^ 6 = 1000000 := by decide
    rw [hp]
    split <;> omega

/-! ## A concrete case -/

/-- `lexOk` for texts, computed (not for all types). -/
def lexB (t : QN) (s : Str) : Bool :=
  match t with
  | .q .xs n => sameStr n (s% "string") || sameStr n (s% "anyURI") ||
      ((sameStr n (s% "ID") || sameStr n (s% "NCName")) && match s with
        | [] => false
        | c :: r => ncStart c && r.all ncChar)
  | .q .kml n => sameStr n (s% "colorType") && Nat.beq s.length 8 && s.all fun c =>
      decide (('0' ≤ c ∧ c ≤ '9') ∨ ('a' ≤ c ∧ c ≤ 'f') ∨ ('A' ≤ c ∧ c ≤ 'F'))
  | .q .atom n => sameStr n (s% "atomEmailAddress") && (List.range s.length).any fun i =>
      decide (0 < i) && decide (i + 1 < s.length) && (match s.drop i with
        | c :: _ => c == '@'
        | [] => false) && (s.take i ++ s.drop (i + 1)).all fun c => decide (c ≠ '\n' ∧ c ≠ '\r')
  | _ => false

theorem lexB_sound {t : QN} {s : Str} (h : lexB t s = true) : lexOk t s := by
  cases t with
  | q x n =>
    cases x <;> simp only [lexB, Bool.and_eq_true, Bool.or_eq_true, sameStr_iff, Bool.false_eq_true] at h
    · obtain ⟨⟨rfl, h1⟩, h2⟩ := h
      have he : enumDecl (.q .kml (s% "colorType")) = none := by decide +kernel
      have hr : rangeOf (.q .kml (s% "colorType")) = none := by decide +kernel
      simp only [lexOk, he, hr]
      simp only [reduceCtorEq, if_false, QN.q.injEq, false_and, false_or, true_and, if_true]
      refine padded_of ⟨Nat.eq_of_beq_eq_true h1, fun c hc => ?_⟩
      simpa using List.all_eq_true.mp h2 c hc
    · obtain ⟨rfl, h⟩ := h
      have he : enumDecl (.q .atom (s% "atomEmailAddress")) = none := by decide +kernel
      have hr : rangeOf (.q .atom (s% "atomEmailAddress")) = none := by decide +kernel
      simp only [lexOk, he, hr]
      simp only [reduceCtorEq, if_false, QN.q.injEq, false_and, false_or, true_and, if_true]
      rw [if_neg (by decide)]
      obtain ⟨i, hi, ⟨⟨h1, h2⟩, h3⟩, h4⟩ := List.any_eq_true.mp h |>.imp fun i hi => by
        simpa only [Bool.and_eq_true, decide_eq_true_eq] using hi
      have hlen : i < s.length := List.mem_range.mp hi
      refine ⟨s.take i, s.drop (i + 1), ?_, ?_, ?_, ?_⟩
      · have hd : s.drop i = s[i] :: s.drop (i + 1) := List.drop_eq_getElem_cons hlen
        rw [hd] at h3
        have hc : s[i] = '@' := by simpa using h3
        rw [← hc, ← hd, List.take_append_drop]
      · intro h0
        have := congrArg List.length h0
        simp only [List.length_take, List.length_drop, List.length_nil] at this; omega
      · intro h0
        have := congrArg List.length h0
        simp only [List.length_take, List.length_drop, List.length_nil] at this; omega
      · intro c hc
        simpa using List.all_eq_true.mp h4 c hc
    · rcases h with (rfl | rfl) | ⟨hn, h⟩
      · have he : enumDecl (.q .xs (s% "string")) = none := by decide +kernel
        have hr : rangeOf (.q .xs (s% "string")) = none := by decide +kernel
        simp only [lexOk, he, hr]
        simp
      · have he : enumDecl (.q .xs (s% "anyURI")) = none := by decide +kernel
        have hr : rangeOf (.q .xs (s% "anyURI")) = none := by decide +kernel
        simp only [lexOk, he, hr]
        simp
      · have hname : NameText s := by
          cases s with
          | nil => cases h
          | cons c r =>
            simp only [Bool.and_eq_true, List.all_eq_true] at h
            exact ⟨c, r, rfl, h⟩
        rcases hn with rfl | rfl
        · have he : enumDecl (.q .xs (s% "ID")) = none := by decide +kernel
          have hr : rangeOf (.q .xs (s% "ID")) = none := by decide +kernel
          simp only [lexOk, he, hr]
          simpa using padded_of hname
        · have he : enumDecl (.q .xs (s% "NCName")) = none := by decide +kernel
          have hr : rangeOf (.q .xs (s% "NCName")) = none := by decide +kernel
          simp only [lexOk, he, hr]
          simpa using padded_of hname

/-- `Fine`, computed (not for all values). -/
def fineB (t : QN) : Val Cls Fix → Bool
  | .str s => s.isEmpty || lexB t s
  | .float ⟨some n⟩ => decide (t = .q .xs (s% "double")) || decide (t = .q .xs (s% "float")) ||
      match rangeOf t with
      | some (lo, hi) => decide (lo * 1000000 ≤ n) && decide (n ≤ hi * 1000000)
      | none => false
  | .float _ => false
  | .int i => decide (-2147483648 ≤ i) && decide (i ≤ 2147483647) && match rangeOf t with
      | some (lo, hi) => decide (lo ≤ i) && decide (i ≤ hi)
      | none => true
  | .dt k => (match k.dt with
      | .date d => decide d.Valid
      | .dt d t => decide d.Valid && decide t.Valid && match t.off with
        | some o => decide (-840 ≤ o) && decide (o ≤ 840)
        | none => true) && decide (1000 ≤ k.dt.day.y)
  | _ => true

theorem fineB_sound {t : QN} {v : Val Cls Fix} (h : fineB t v = true) : Fine t v := by
  cases v with
  | str s =>
    simp only [fineB, Bool.or_eq_true, List.isEmpty_iff] at h
    intro hne
    exact lexB_sound (h.resolve_left hne)
  | float f =>
    obtain ⟨n⟩ := f
    cases n with
    | none => cases h
    | some n =>
      simp only [fineB, Bool.or_eq_true, decide_eq_true_eq] at h
      refine C44_numbers n t ?_
      rcases h with h | h
      · exact .inl h
      · right
        cases hr : rangeOf t with
        | none => rw [hr] at h; cases h
        | some r =>
          obtain ⟨lo, hi⟩ := r
          rw [hr] at h
          simp only [Bool.and_eq_true, decide_eq_true_eq] at h
          exact ⟨lo, hi, rfl, h⟩
  | int i =>
    simp only [fineB, Bool.and_eq_true, decide_eq_true_eq] at h
    refine ⟨fun _ => h.1, fun lo hi hr => ?_⟩
    rw [hr] at h
    simpa using h.2
  | dt k =>
    simp only [fineB, Bool.and_eq_true, decide_eq_true_eq] at h
    obtain ⟨h1, h2⟩ := h
    cases hk : k.dt with
    | date d =>
      rw [hk] at h1
      simp only [decide_eq_true_eq] at h1
      refine ⟨by rw [hk]; exact h1, fun _ => h2, fun d t o hd => ?_⟩
      rw [hk] at hd; cases hd
    | dt d t =>
      rw [hk] at h1
      simp only [Bool.and_eq_true, decide_eq_true_eq] at h1
      refine ⟨by rw [hk]; exact h1.1, fun _ => h2, fun d' t' o hd ho => ?_⟩
      rw [hk] at hd
      cases hd
      have := h1.2
      rw [ho] at this
      simpa using this
  | _ => exact trivial

/-- `Valued`, computed. -/
def valuedB (o : Opts) (c : Cls) (_ns : Str) (_nss : NsMap) (as : List (Str × Val Cls Fix)) : Bool :=
  ((typesOf c).all fun T => (fastkml.itemsOf c).all fun it =>
    match shown o.verbosity it.dflt.val (attr it.attr as) with
    | .none => true
    | w => ((partsOf 8 T).all fun p => p.elems.all fun x => !sameStr x.1.name it.node || match x.2 with
        | some t => fineB t w
        | none => true) &&
      (typeAttrs 8 T).all fun a => !sameStr a.name it.node || match a.type with
        | some t => fineB t w
        | none => true) &&
  (rows as).all fun r => match r.when_ with
    | some k => fineB (.q .kml (s% "dateTimeType")) (.dt k)
    | none => true

theorem valuedB_sound {o : Opts} {c : Cls} {ns : Str} {nss : NsMap} {as : List (Str × Val Cls Fix)}
    (h : valuedB o c ns nss as = true) : Valued o c ns nss as := by
  simp only [valuedB, Bool.and_eq_true, List.all_eq_true] at h
  obtain ⟨h1, h2⟩ := h
  refine ⟨fun T hT it hit t hde => ?_, fun r hr k hk => ?_⟩
  · have hmem : T ∈ typesOf c := by
      rcases hT with h | ⟨rfl, rfl⟩
      · simp [typesOf, h]
      · simp [typesOf]
    have := h1 T hmem it hit
    generalize shown o.verbosity it.dflt.val (attr it.attr as) = w at this
    have hfine : (w = .none) ∨ fineB t w = true := by
      by_cases hw : w = .none
      · exact .inl hw
      right
      have this : (∀ p ∈ partsOf 8 T, ∀ x ∈ p.elems, (!sameStr x.1.name it.node || match x.2 with
          | some t => fineB t w
          | none => true) = true) ∧ ∀ a ∈ typeAttrs 8 T, (!sameStr a.name it.node || match a.type with
          | some t => fineB t w
          | none => true) = true := by
        cases w <;> first
          | exact absurd rfl hw
          | simpa only [Bool.and_eq_true, List.all_eq_true] using this
      rcases hde with ⟨p, hp, ns, hx⟩ | ⟨a, ha, hn, ht⟩
      · have := this.1 p hp _ hx
        simpa [QN.name, sameStr_iff.mpr] using this
      · have := this.2 a ha
        rw [ht] at this
        simpa [hn, sameStr_iff.mpr] using this
    rcases hfine with rfl | h
    · exact trivial
    · exact fineB_sound h
  · have := h2 r hr
    rw [hk] at this
    exact fineB_sound this

/-- Concrete case: the file of `Verif/Props/Valid.lean`, with styles, an angle, a time and
texts, meets the conditions. -/
example : AllValued ⟨none, .normal⟩ validKml := everywhere_of (q := valuedB ⟨none, .normal⟩) (fun _ _ _ _ => valuedB_sound) (by decide +kernel)

set_option maxRecDepth 10000 in
example : ∃ t e, elemType .KML = some t ∧ ser fastkml ⟨none, .normal⟩ validKml = .ok e ∧ Valid lexOk t e := by
  cases he : ser fastkml ⟨none, .normal⟩ validKml with
  | error x =>
    have : (match ser fastkml ⟨none, .normal⟩ validKml with | .ok _ => true | .error _ => false) = true := by decide +kernel
    rw [he] at this; cases this
  | ok e =>
    obtain ⟨t, ht, -, hv⟩ := C44_values (P := dim23) (by decide +kernel)
      (everywhere_of (q := schematicB ⟨none, .normal⟩) (fun _ _ _ _ => schematicB_sound) (by decide +kernel))
      (everywhere_of (q := valuedB ⟨none, .normal⟩) (fun _ _ _ _ => valuedB_sound) (by decide +kernel)) (by decide +kernel) he
    exact ⟨t, e, ht, rfl, hv⟩

/-! ## Values outside the types -/

/-- A value that no whitespace surrounds. -/
theorem padded_bare {R : Str → Prop} {s : Str} (h : Padded R s) (hs : ∀ c ∈ s, c ∉ xmlSpaces) : R s := by
  obtain ⟨w, u, w', rfl, hw, hu⟩ := h
  have h1 : w = [] := by
    cases w with
    | nil => rfl
    | cons c r => exact absurd (hw c (by simp)) (hs c (by simp))
  have h2 : w' = [] := by
    cases w' with
    | nil => rfl
    | cons c r => exact absurd (hw c (by simp)) (hs c (by simp))
  subst h1 h2
  simpa using hu

theorem momentText_length {s : Str} (h : MomentText s) : 4 ≤ s.length := by
  have hy : ∀ {y s}, YearText y s → 4 ≤ s.length := by
    rintro y s ⟨sg, ds, rfl, -, -, h, -⟩
    simp; omega
  have hm : ∀ {y m s}, MonthText y m s → 4 ≤ s.length := by
    rintro y m s ⟨Y, M, rfl, h, -⟩
    have := hy h
    simp; omega
  have hd : ∀ {s}, DayText s → 4 ≤ s.length := by
    rintro s ⟨ym, D, y, m, d, rfl, h, -⟩
    have := hm h
    simp; omega
  obtain ⟨u, z, rfl, -, ⟨d, t, rfl, h, -⟩ | h | ⟨y, m, h⟩ | ⟨y, h⟩⟩ := h
  · have := hd h
    simp; omega
  · have := hd h
    simp; omega
  · have := hm h
    simp; omega
  · have := hy h
    simp; omega

theorem doubleText_digit {s : Str} (h : DoubleText s) : s ∈ [s% "INF", s% "-INF", s% "NaN"] ∨ ∃ c ∈ s, '0' ≤ c ∧ c ≤ '9' := by
  rcases h with h | ⟨neg, m, k, e, sg, mt, ex, rfl, -, ⟨a, b, ha, hb, hne, -, -, hs⟩, -⟩
  · exact .inl h
  right
  obtain ⟨c, hc⟩ := List.exists_mem_of_ne_nil _ hne
  refine ⟨c, ?_, ?_⟩
  · rcases hs with rfl | ⟨rfl, rfl⟩
    · rcases List.mem_append.mp hc with h | h <;> simp [h]
    · simp only [List.append_nil] at hc
      simp [hc]
  · rcases List.mem_append.mp hc with h | h
    · exact ha c h
    · exact hb c h

/-- A child whose text is not a value of its type. -/
theorem misfit_child {ok : QN → Str → Prop} {c : Cls} {T : QN} (hT : T ∈ typesOf c) {e k : Xml} {q t : QN} {s : Str}
    (hk : k ∈ e.kids) (hq : k.tag = tagOf q) (hd : ((partsOf 8 T).any fun p => p.elems.any fun x => decide (x = (q, some t))) = true)
    (ht : typeDecl t = none) (hs : k.text = some s) (hn : ¬ ok t s) : ¬ Valid ok T e := by
  intro hv
  obtain ⟨p, hp, h⟩ := List.any_eq_true.mp hd
  obtain ⟨x, hx, h⟩ := List.any_eq_true.mp h
  have hx' : x = (q, some t) := by simpa using h
  subst hx'
  obtain ⟨q', t', hkq', ⟨p', hp', hx'⟩, hv'⟩ := valid_kid hv hk
  have hqq : q = q' := tagOf_inj (hq.symm.trans hkq')
  subst hqq
  have := unique_types hT hp hx hp' hx'
  cases this
  cases hv' with
  | simple _ _ _ h => exact hn (h s hs)
  | complex h _ _ _ _ _ => rw [ht] at h; cases h

/-- An XML attribute whose value is not one of its type. -/
theorem misfit_attr {ok : QN → Str → Prop} {c : Cls} {T : QN} (hT : T ∈ typesOf c) {e : Xml} {a : XAttr} {t : QN} {s : Str}
    (ha : a ∈ typeAttrs 8 T) (ht : a.type = some t) (hs : e.get a.name = some s) (hd : typeDecl T ≠ none) (hn : ¬ ok t s) :
    ¬ Valid ok T e := by
  intro hv
  cases hv with
  | simple h => exact hd h
  | complex _ h =>
    obtain ⟨a', ha', hname, hok⟩ := h _ _ hs
    have : a' = a := injOn_of_nodup_map (attr_names hT).1 ha' ha hname
    subst this
    exact hn (hok t ht)

/-- The object is written with the child `q`, of type `t`, with text `s`. -/
def writesChild (v : Val Cls Fix) (c : Cls) (q t : QN) (s : Str) : Bool :=
  match elemType c with
  | none => false
  | some T => (typeDecl t).isNone && ((partsOf 8 T).any fun p => p.elems.any fun x => decide (x = (q, some t))) &&
    match ser fastkml ⟨none, .normal⟩ v with
    | .ok e => e.kids.any fun k => decide (k.tag = tagOf q) && decide (k.text = some s)
    | .error _ => false

theorem writesChild_sound {ok : QN → Str → Prop} {v : Val Cls Fix} {c : Cls} {q t : QN} {s : Str}
    (h : writesChild v c q t s = true) (hn : ¬ ok t s) :
    ∃ T e, elemType c = some T ∧ ser fastkml ⟨none, .normal⟩ v = .ok e ∧ ¬ Valid ok T e := by
  unfold writesChild at h
  cases hT : elemType c with
  | none => rw [hT] at h; cases h
  | some T =>
    rw [hT] at h
    cases he : ser fastkml ⟨none, .normal⟩ v with
    | error x => rw [he] at h; simp at h
    | ok e =>
      rw [he] at h
      simp only [Bool.and_eq_true, Option.isNone_iff_eq_none] at h
      obtain ⟨⟨h1, h2⟩, h3⟩ := h
      obtain ⟨k, hk, h3⟩ := List.any_eq_true.mp h3
      simp only [Bool.and_eq_true, decide_eq_true_eq] at h3
      exact ⟨T, e, rfl, rfl, misfit_child (c := c) (by simp [typesOf, hT]) hk h3.1 h2 h1 h3.2 hn⟩

/-- A time that is only a year, before the year 1000. -/
def earlyYear : Val Cls Fix := newObj .TimeStamp [(s% "timestamp", .dt ⟨.date ⟨999, 1, 1⟩, .year⟩)]

/-- **C44, excluded case.** The year 999 is written with three digits, which is not a year of
the schemas. -/
theorem C44_year : ∃ T e, elemType .TimeStamp = some T ∧ ser fastkml ⟨none, .normal⟩ earlyYear = .ok e ∧ ¬ Valid lexOk T e := by
  refine writesChild_sound (q := .q .kml (s% "when")) (t := .q .kml (s% "dateTimeType")) (s := s% "999") (by decide +kernel) ?_
  intro h
  have he : enumDecl (.q .kml (s% "dateTimeType")) = none := by decide +kernel
  have hr : rangeOf (.q .kml (s% "dateTimeType")) = none := by decide +kernel
  simp only [lexOk, he, hr] at h
  rw [if_neg (by decide), if_neg (by decide), if_neg (by decide), if_neg (by decide), if_neg (by decide), if_pos trivial] at h
  have := momentText_length (padded_bare h (by decide))
  exact absurd this (by decide)

/-- **C44, excluded case.** What Python writes for a number that is not a number is not what
the schemas call it. -/
theorem C44_nan : ∃ T e, elemType .LineStyle = some T ∧
    ser fastkml ⟨none, .normal⟩ (newObj .LineStyle [(s% "width", .float ⟨none⟩)]) = .ok e ∧ ¬ Valid lexOk T e := by
  refine writesChild_sound (q := .q .kml (s% "width")) (t := .q .xs (s% "double")) (s := s% "nan") (by decide +kernel) ?_
  intro h
  have he : enumDecl (.q .xs (s% "double")) = none := by decide +kernel
  simp only [lexOk, he] at h
  rw [if_neg (by decide), if_neg (by decide), if_neg (by decide), if_pos (by decide)] at h
  rcases doubleText_digit (padded_bare h (by decide)) with h | ⟨c, hc, h1, h2⟩
  · exact absurd h (by decide)
  · simp only [List.mem_cons, List.not_mem_nil, or_false] at hc
    rcases hc with rfl | rfl | rfl <;> exact absurd h2 (by decide)

/-- **C44, excluded case.** Any text is written as a colour. -/
theorem C44_color : ∃ T e, elemType .LineStyle = some T ∧
    ser fastkml ⟨none, .normal⟩ (newObj .LineStyle [(s% "color", .str (s% "red"))]) = .ok e ∧ ¬ Valid lexOk T e := by
  refine writesChild_sound (q := .q .kml (s% "color")) (t := .q .kml (s% "colorType")) (s := s% "red") (by decide +kernel) ?_
  intro h
  have he : enumDecl (.q .kml (s% "colorType")) = none := by decide +kernel
  have hr : rangeOf (.q .kml (s% "colorType")) = none := by decide +kernel
  simp only [lexOk, he, hr] at h
  simp only [reduceCtorEq, if_false, QN.q.injEq, false_and, false_or, true_and, if_true] at h
  exact absurd (padded_bare h (by decide)).1 (by decide)

/-- **C44, excluded case.** An angle out of range. -/
theorem C44_angle : ∃ T e, elemType .Camera = some T ∧
    ser fastkml ⟨none, .normal⟩ (newObj .Camera [(s% "latitude", .int 91)]) = .ok e ∧ ¬ Valid lexOk T e := by
  refine writesChild_sound (q := .q .kml (s% "latitude")) (t := .q .kml (s% "angle90Type")) (s := s% "91") (by decide +kernel) ?_
  intro h
  have h := padded_bare ((lexOk_range (lo := -90) (hi := 90) (by decide +kernel)).mp h) (by decide)
  obtain ⟨neg, m, k, e, ⟨sg, mt, ex, hs, hsg, ⟨a, b, -, -, -, hm, hk, hmt⟩, hex⟩, hb⟩ := h
  have hc : ∀ c ∈ sg ++ mt ++ ex, c = '9' ∨ c = '1' := by rw [← hs]; decide
  have h1 : sg = [] ∧ neg = false := by
    cases neg with
    | true =>
      have hsg : sg = ['-'] := hsg
      exact absurd (hc '-' (by simp [hsg])) (by decide)
    | false =>
      rcases hsg with hsg | hsg
      · exact ⟨hsg, rfl⟩
      · exact absurd (hc '+' (by simp [hsg])) (by decide)
  have h2 : ex = [] ∧ e = 0 := by
    rcases hex with h | ⟨c, t, hce, rfl, -⟩
    · exact h
    · have := hc c (by simp)
      rcases hce with rfl | rfl <;> exact absurd this (by decide)
  have h3 : b = [] ∧ mt = a := by
    rcases hmt with rfl | h
    · exact absurd (hc '.' (by simp)) (by decide)
    · exact h
  obtain ⟨rfl, rfl⟩ := h1
  obtain ⟨rfl, rfl⟩ := h2
  obtain ⟨rfl, rfl⟩ := h3
  simp only [List.nil_append, List.append_nil] at hs hm
  subst hs
  subst hk
  have : m = 91 := hm
  subst this
  exact absurd (show (-90 : Int) * 1 ≤ 91 * 1 ∧ (91 : Int) * 1 ≤ 90 * 1 from hb) (by decide)

/-- **C44, excluded case.** An id that begins with a digit. -/
theorem C44_id : ∃ T e, elemType .Folder = some T ∧
    ser fastkml ⟨none, .normal⟩ (newObj .Folder [(s% "id", .str (s% "1"))]) = .ok e ∧ ¬ Valid lexOk T e := by
  cases he : ser fastkml ⟨none, .normal⟩ (newObj .Folder [(s% "id", .str (s% "1"))]) with
  | error x =>
    have : (match ser fastkml ⟨none, .normal⟩ (newObj .Folder [(s% "id", .str (s% "1"))]) with
      | .ok _ => true | .error _ => false) = true := by decide +kernel
    rw [he] at this; cases this
  | ok e =>
    have hg : (match ser fastkml ⟨none, .normal⟩ (newObj .Folder [(s% "id", .str (s% "1"))]) with
      | .ok e => decide (e.get (s% "id") = some (s% "1")) | .error _ => false) = true := by decide +kernel
    rw [he] at hg
    have hT : elemType .Folder = some (.q .kml (s% "FolderType")) := by decide +kernel
    have hany : ((typeAttrs 8 (.q .kml (s% "FolderType"))).any fun a =>
      sameStr a.name (s% "id") && decide (a.type = some (.q .xs (s% "ID")))) = true := by decide +kernel
    obtain ⟨a, ha, h⟩ := List.any_eq_true.mp hany
    simp only [Bool.and_eq_true, sameStr_iff, decide_eq_true_eq] at h
    refine ⟨_, e, hT, rfl, misfit_attr (c := .Folder) (by simp [typesOf, hT]) ha h.2 (by rw [h.1]; exact of_decide_eq_true hg)
      (by decide +kernel) ?_⟩
    intro hl
    have hen : enumDecl (.q .xs (s% "ID")) = none := by decide +kernel
    have hr : rangeOf (.q .xs (s% "ID")) = none := by decide +kernel
    simp only [lexOk, hen, hr] at hl
    obtain ⟨c, r, hs, hc, -⟩ := padded_bare (R := NameText) (s := s% "1") (by simpa using hl) (by decide)
    cases hs
    exact absurd hc (by decide)

/-! ## C63: reading documents that are valid including their texts -/

variable {F : Type} [PyExt F]

/-- An instance of the laws: the numbers of `Fix`, where all the notations of the schemas
can be read (truncated to six decimals). -/
structure XFix where
  val : Fix

namespace XFix

open scoped Classical in
/-- `float(s)`. -/
noncomputable def parse (s : Str) : Option XFix :=
  match Fix.parse s with
  | some f => some ⟨f⟩
  | none =>
    if h : ∃ x : Bool × Nat × Nat × Int, Padded (DecimalText x.1 x.2.1 x.2.2.1 x.2.2.2) s then
      let x := Classical.choose h
      let n : Int := (x.2.1 * 10 ^ x.2.2.2.toNat * 1000000 / 10 ^ (x.2.2.1 + (-x.2.2.2).toNat) : Nat)
      some ⟨⟨some (if x.1 then -n else n)⟩⟩
    else if Padded DoubleText s then some ⟨⟨none⟩⟩ else none

noncomputable instance : PyExt XFix where
  repr f := Fix.repr f.val
  parse := parse
  fixed p f := Fix.fixed p f.val
  ofInt i := ⟨PyExt.ofInt i⟩
  ofDec n d := ⟨PyExt.ofDec n d⟩
  beq f g := Fix.beq f.val g.val
  truthy f := PyExt.truthy f.val
  isNaN f := PyExt.isNaN f.val
  arrowGet := Fix.isoParse

theorem parse_of {s : Str} {f : Fix} (h : PyExt.parse s = some f) : PyExt.parse s = some (⟨f⟩ : XFix) := by
  have h : Fix.parse s = some f := h
  show parse s = _
  simp only [parse, h]

theorem not_padded_nil {R : Str → Prop} (h : ¬ R []) : ¬ Padded R [] := by
  rintro ⟨w, u, w', hs, -, hu⟩
  have := congrArg List.length hs
  have : u = [] := by
    cases u with
    | nil => rfl
    | cons c r => simp at this
  rw [this] at hu
  exact h hu

instance : LawfulExt XFix where
  parse_repr f := parse_of (LawfulExt.parse_repr f.val)
  repr_plain f := LawfulExt.repr_plain f.val
  parse_int i := parse_of (LawfulExt.parse_int (F := Fix) i)
  fixed_plain p f := LawfulExt.fixed_plain p f.val
  fixed_parse p f := by
    obtain ⟨g, hg⟩ := LawfulExt.fixed_parse p f.val
    exact ⟨⟨g⟩, parse_of hg⟩
  parse_nil := by
    have h0 : Fix.parse [] = none := by decide
    have hd : ¬ DoubleText [] := by
      intro h
      rcases doubleText_digit h with h | ⟨c, hc, -⟩
      · exact absurd h (by decide)
      · cases hc
    show parse [] = none
    simp only [parse, h0]
    rw [dif_neg, if_neg (not_padded_nil hd)]
    rintro ⟨x, hx⟩
    exact not_padded_nil (fun h => hd (.inr ⟨_, _, _, _, h⟩)) hx
  beq_refl f := LawfulExt.beq_refl f.val
  beq_symm f g := LawfulExt.beq_symm f.val g.val
  beq_nan f g := LawfulExt.beq_nan f.val g.val
  arrow_iso := LawfulExt.arrow_iso (F := Fix)
  arrow_naive := LawfulExt.arrow_naive (F := Fix)
  arrow_valid := LawfulExt.arrow_valid (F := Fix)

instance : ReadsDoubles XFix where
  parse_double s h := by
    show ∃ f, parse s = some f
    unfold parse
    split
    · exact ⟨_, rfl⟩
    · split
      · exact ⟨_, rfl⟩
      · exact ⟨⟨⟨none⟩⟩, by first | rfl | rw [if_pos h]⟩

end XFix

theorem xmlSpaces_isSpace {c : Char} (h : c ∈ xmlSpaces) : isSpace c = true := by
  have key : ∀ c ∈ xmlSpaces, isSpace c = true := by decide
  exact key c h

theorem xmlSpaces_int {c : Char} (h : c ∈ xmlSpaces) : isSpace c = true ∧ ¬ (0x1C ≤ c.toNat ∧ c.toNat ≤ 0x1F) := by
  have key : ∀ c ∈ xmlSpaces, isSpace c = true ∧ ¬ (0x1C ≤ c.toNat ∧ c.toNat ≤ 0x1F) := by decide
  exact key c h

/-- What `strip` leaves of a value with whitespace around it. -/
theorem strip_padded {R : Str → Prop} {s : Str} (h : Padded R s) (hR : ∀ u, R u → ∀ c ∈ u, isSpace c = false) : R (strip s) := by
  obtain ⟨w, u, w', rfl, hw, hu⟩ := h
  rw [strip_surround (fun c hc => xmlSpaces_isSpace (hw c (by simp [hc]))) (fun c hc => xmlSpaces_isSpace (hw c (by simp [hc])))
    (trimmed_of_noSpace (hR u hu))]
  exact hu

theorem decDigit_noSpace {c : Char} (h : '0' ≤ c ∧ c ≤ '9') : isSpace c = false := by
  obtain ⟨d, hd⟩ := (decDigits_iff (s := [c])).mp (fun x hx => by simp at hx; subst hx; exact h) c (by simp)
  exact digit_noSpace hd

theorem signText_noSpace {neg : Bool} {s : Str} (h : SignText neg s) : ∀ c ∈ s, isSpace c = false := by
  cases neg with
  | true => have h : s = ['-'] := h; subst h; decide
  | false =>
    rcases h with rfl | rfl
    · simp
    · decide

theorem integerText_noSpace {i : Int} {s : Str} (h : IntegerText i s) : ∀ c ∈ s, isSpace c = false := by
  obtain ⟨neg, sg, ds, rfl, hsg, -, hd, -⟩ := h
  intro c hc
  rcases List.mem_append.mp hc with hc | hc
  · exact signText_noSpace hsg c hc
  · exact decDigit_noSpace (hd c hc)

theorem doubleText_noSpace {s : Str} (h : DoubleText s) : ∀ c ∈ s, isSpace c = false := by
  rcases h with h | ⟨neg, m, k, e, sg, mt, ex, rfl, hsg, ⟨a, b, ha, hb, -, -, -, hs⟩, hex⟩
  · have key : ∀ s ∈ [s% "INF", s% "-INF", s% "NaN"], ∀ c ∈ s, isSpace c = false := by decide
    exact key s h
  intro c hc
  simp only [List.mem_append] at hc
  rcases hc with (hc | hc) | hc
  · exact signText_noSpace hsg c hc
  · rcases hs with rfl | ⟨rfl, rfl⟩
    · rcases List.mem_append.mp hc with hc | hc
      · exact decDigit_noSpace (ha c hc)
      · rcases List.mem_cons.mp hc with rfl | hc
        · decide
        · exact decDigit_noSpace (hb c hc)
    · exact decDigit_noSpace (ha c hc)
  · rcases hex with ⟨rfl, -⟩ | ⟨x, t, hx, rfl, ht⟩
    · cases hc
    · rcases List.mem_cons.mp hc with rfl | hc
      · rcases hx with rfl | rfl <;> decide
      · exact integerText_noSpace ht c hc

/-- Integers of the schemas are integers for Python. -/
theorem intParse_padded {s : Str} (h : Padded (fun u => ∃ i, IntegerText i u) s) : ∃ i, intParse s = some i := by
  obtain ⟨w, u, w', rfl, hw, i, neg, sg, ds, rfl, hsg, hne, hd, hi⟩ := h
  refine ⟨i, (C66_read _ _).mpr (intText_ascii ?_ ?_ hne hd ?_)⟩
  · exact fun c hc => xmlSpaces_int (hw c (by simp [hc]))
  · exact fun c hc => xmlSpaces_int (hw c (by simp [hc]))
  · cases neg with
    | true => exact .inr ⟨hsg, by simpa using hi⟩
    | false => exact .inl ⟨hsg, by simpa using hi⟩

/-- The numbers of the schemas. -/
theorem lexOk_float {t : QN} (ht : t ∈ floatTypes) {s : Str} (h : lexOk t s) : Padded DoubleText s := by
  have key : ∀ t ∈ floatTypes, enumDecl t = none ∧ t ≠ .q .xs (s% "boolean") ∧ t ≠ .q .xs (s% "int") ∧
      t ≠ .q .xs (s% "integer") ∧ ((t = .q .xs (s% "double") ∨ t = .q .xs (s% "float")) ∨ (rangeOf t).isSome = true) := by
    decide +kernel
  obtain ⟨he, h1, h2, h3, h4⟩ := key t ht
  by_cases hd : t = .q .xs (s% "double") ∨ t = .q .xs (s% "float")
  · simp only [lexOk, he, h1, h2, h3, hd, if_false, if_true] at h
    exact h
  · cases hr : rangeOf t with
    | none =>
      rw [hr] at h4
      exact absurd (h4.resolve_left hd) (by decide)
    | some r =>
      obtain ⟨lo, hi⟩ := r
      obtain ⟨w, u, w', rfl, hw, neg, m, k, e, hu, -⟩ := (lexOk_range hr).mp h
      exact ⟨w, u, w', rfl, hw, .inr ⟨neg, m, k, e, hu⟩⟩

/-- A valid text is well-formed, with or without the whitespace around it. -/
theorem reads_of_lexOk [ReadsDoubles F] {c : Cls} {n : Str} {t : QN} {s u : Str}
    (hu : u = strip s ∨ u = s ∧ t ≠ .q .xs (s% "boolean"))
    (hr : WellFormedTime F c n (some t) u) (hs : lexOk t s) : Reads F (kindOf c n (some t)) u := by
  by_cases hc : c = .Lod ∨ c = .atom_Link ∨ c = .SimpleField
  · simp only [WellFormedTime] at hr
    split at hr
    · exact hr
    · exact hr hc
  · have h1 : c ≠ .Lod := fun h => hc (.inl h)
    have h2 : c ≠ .atom_Link := fun h => hc (.inr (.inl h))
    have h3 : c ≠ .SimpleField := fun h => hc (.inr (.inr h))
    have hs' := hs
    simp only [lexOk] at hs
    simp only [WellFormedTime] at hr
    simp only [kindOf, h1, h2, h3, if_false, false_and] at hr ⊢
    cases he : enumDecl t with
    | some e =>
      rw [he] at hs
      simp only [he] at hr ⊢
      have : u = s := by
        rcases hu with rfl | ⟨rfl, -⟩
        · exact enum_trimmed he hs
        · rfl
      rw [this]
      exact hs
    | none =>
      rw [he] at hs
      simp only [he] at hr ⊢
      by_cases hb : t = .q .xs (s% "boolean")
      · have hu : u = strip s := hu.resolve_right fun h => h.2 hb
        subst hu
        simp only [hb, if_true] at hs ⊢
        have := strip_padded hs (by decide)
        simp only [List.mem_cons, List.not_mem_nil, or_false] at this
        simp only [Reads, List.mem_cons, List.not_mem_nil, or_false]
        rcases this with h | h | h | h
        · exact .inr (.inl h)
        · exact .inr (.inr (.inr h))
        · exact .inr (.inr (.inl h))
        · exact .inl h
      · simp only [hb, if_false] at hs hr ⊢
        by_cases hi : t = .q .xs (s% "int") ∨ t = .q .xs (s% "integer")
        · have hp : Padded (fun u => ∃ i, IntegerText i u) s := by
            by_cases h : t = .q .xs (s% "int")
            · rw [if_pos h] at hs
              obtain ⟨w, u, w', rfl, hw, i, hi, -⟩ := hs
              exact ⟨w, u, w', rfl, hw, i, hi⟩
            · rw [if_neg h, if_pos (hi.resolve_left h)] at hs
              exact hs
          rw [if_pos hi]
          obtain ⟨i, hi⟩ := intParse_padded hp
          refine ⟨i, ?_⟩
          rcases hu with rfl | ⟨rfl, -⟩
          · exact intParse_strip hi
          · exact hi
        · simp only [hi, if_false] at hr ⊢
          by_cases hfl : t ∈ floatTypes
          · simp only [hfl, if_true]
            have hp := lexOk_float hfl hs'
            refine ReadsDoubles.parse_double u ?_
            rcases hu with rfl | ⟨rfl, -⟩
            · exact padded_of (strip_padded hp fun u => doubleText_noSpace)
            · exact hp
          · simp only [hfl, if_false] at hr ⊢
            by_cases hd : t = .q .kml (s% "dateTimeType")
            · simp only [hd, if_true] at hr ⊢
              exact hr
            · simp only [hd, if_false]
              trivial

theorem yields_lexOk [ReadsDoubles F] : Yields F lexOk (WellFormedTime F) where
  child c n t s hs hr := reads_of_lexOk (.inl rfl) hr hs
  attr c n t s ht hs hr := reads_of_lexOk (.inr ⟨rfl, ht⟩) hr hs
  special c n t s hc hr := by
    simp only [WellFormedTime] at hr
    split at hr
    · exact hr
    · exact hr hc

/-- **C63** with all simple types: strict reading of an element that is valid including
its texts, in which times and coordinates can be read, as the class of that name succeeds,
keeps all of the content that is supported, and the result can be written. -/
theorem C63_values [ReadsDoubles F] {c : Cls} {T : QN} (hc : elemType c = some T) {e : Xml} (he : Valid lexOk T e)
    (hf : Fit F (WellFormedTime F) e c T) (ns : Option Str) :
    ∃ v : Val Cls F, fromElement fastkml true c ns [] e = .ok v ∧ Kept e c T v ∧ ∀ o, ∃ x, ser fastkml o v = .ok x :=
  accepted_of hc he (fit_of_yields yields_lexOk (by simp [typesOf, hc]) he hf) ns

/-- **C63** for `KML.parse`, with all simple types. -/
theorem C63_values_kml [ReadsDoubles F] {root : Xml} {T : QN} (hT : elemType .KML = some T)
    (hr : root.tag = tagOf (elemName .KML)) (he : Valid lexOk T root) (hf : Fit F (WellFormedTime F) root .KML T) :
    ∃ v : Val Cls F, parseRoot none none true root = .ok v ∧ Kept root .KML T v ∧ ∀ o, ∃ x, ser fastkml o v = .ok x :=
  accepted_kml hT hr he (fit_of_yields yields_lexOk (by simp [typesOf, hT]) he hf)

/-! Concrete case: a document with blanks around a boolean and a number in scientific
notation, a colour, and coordinates. -/

/-- The document. -/
def scientificDoc : Xml := kNode (s% "kml") [] [kNode (s% "Placemark") [(s% "id", s% "p1")] [
  kLeaf (s% "visibility") (s% " true\n"),
  kNode (s% "TimeStamp") [] [kLeaf (s% "when") (s% "2020-01-02")],
  kNode (s% "Style") [] [kNode (s% "LineStyle") [] [kLeaf (s% "color") (s% "ff0000FF"),
    kLeaf (s% "width") (s% " +1.5E1 ")]],
  kNode (s% "Point") [] [kLeaf (s% "coordinates") (s% "1,2")]]]

/-- `lexOk` for the texts of the document. -/
def scientificB (t : QN) (s : Str) : Bool :=
  lexB t s || (decide (t = .q .xs (s% "boolean")) && sameStr s (s% " true\n")) ||
  (decide (t = .q .xs (s% "double")) && sameStr s (s% " +1.5E1 ")) ||
  (decide (t = .q .kml (s% "dateTimeType")) && sameStr s (s% "2020-01-02")) ||
  decide (t = .q .kml (s% "coordinatesType"))

theorem scientificB_sound {t : QN} {s : Str} (h : scientificB t s = true) : lexOk t s := by
  simp only [scientificB, Bool.or_eq_true, Bool.and_eq_true, decide_eq_true_eq, sameStr_iff] at h
  rcases h with (((h | ⟨rfl, rfl⟩) | ⟨rfl, rfl⟩) | ⟨rfl, rfl⟩) | rfl
  · exact lexB_sound h
  · have he : enumDecl (.q .xs (s% "boolean")) = none := by decide +kernel
    simp only [lexOk, he, if_true]
    exact ⟨s% " ", s% "true", s% "\n", rfl, by decide, by decide⟩
  · refine lexOk_double (.inl rfl) ⟨s% " ", s% "+1.5E1", s% " ", rfl, by decide, .inr ⟨false, 15, 1, 1,
      s% "+", s% "1.5", s% "E1", rfl, .inr rfl, ⟨s% "1", s% "5", by unfold DecDigits; decide, by unfold DecDigits; decide, by decide, rfl, rfl, .inl rfl⟩,
      .inr ⟨'E', s% "1", .inr rfl, rfl, false, [], s% "1", rfl, .inl rfl, by decide, by unfold DecDigits; decide, rfl⟩⟩⟩
  · exact lexOk_moment (by
      have := dayText_iso (d := ⟨2020, 1, 2⟩) (by decide)
      exact ⟨s% "2020-01-02", [], rfl, .inl rfl, .inr (.inl this)⟩)
  · have he : enumDecl (.q .kml (s% "coordinatesType")) = none := by decide +kernel
    have hr : rangeOf (.q .kml (s% "coordinatesType")) = none := by decide +kernel
    simp only [lexOk, he, hr]
    simp

example : Valid lexOk (.q .kml (s% "KmlType")) scientificDoc := validB_sound scientificB_sound (n := 10) (by decide +kernel)

/-- `WellFormedTime`, computed. -/
def timeB (F : Type) [PyExt F] (c : Cls) (n : Str) (t : Option QN) (s : Str) : Bool :=
  match kindOf c n t with
  | .time => (KmlDateTime.parse (PyExt.arrowGet F) s).isSome
  | K => !decide (c = .Lod ∨ c = .atom_Link ∨ c = .SimpleField) || readsB F K s

theorem timeB_sound {c : Cls} {n : Str} {t : Option QN} {s : Str} (h : timeB F c n t s = true) : WellFormedTime F c n t s := by
  simp only [timeB] at h
  simp only [WellFormedTime]
  cases hk : kindOf c n t <;> rw [hk] at h <;> simp only [Bool.or_eq_true, Bool.not_eq_true', decide_eq_false_iff_not] at h ⊢
  case time => exact Option.isSome_iff_exists.mp h
  all_goals exact fun hc => readsB_sound (h.resolve_left (fun h => h hc))

example : Fit XFix (WellFormedTime XFix) scientificDoc .KML (.q .kml (s% "KmlType")) :=
  fitB_rule (rb := timeB XFix) (fun h => timeB_sound h) (n := 10) (by decide +kernel)

end Verif
