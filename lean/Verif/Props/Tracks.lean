import Verif.Spec.Tracks
import Verif.Props.Geometry
import Verif.Props.Reading

/-!
# Tracks (C32-C34)
-/

set_option linter.unusedSectionVars false
set_option linter.unusedSimpArgs false

namespace Verif

open Spec

variable {F : Type} [PyExt F]

/-! ## C32 Pairing -/

theorem mkAngle_ok {a : List F} (h : a.length ≤ 3) : mkAngle a = .ok (anglesFrom a) := by
  match a, h with
  | [], _ => rfl
  | [_], _ => rfl
  | [_, _], _ => rfl
  | [_, _, _], _ => rfl
  | _ :: _ :: _ :: _ :: _, h => simp only [List.length_cons] at h; omega

theorem mkAngle_iff {a : List F} {x : F × F × F} : mkAngle a = .ok x ↔ a.length ≤ 3 ∧ x = anglesFrom a := by
  by_cases h : a.length ≤ 3
  · rw [mkAngle_ok h]; simp [h, eq_comm]
  · match a, h with
    | _ :: _ :: _ :: _ :: _, h => simp only [mkAngle]; simp
    | [], h | [_], h | [_, _], h | [_, _, _], h => simp at h

theorem mkTrackItem_iff {w : Option KmlDateTime} {c a : Pt F} {r : TrackItem F} :
    mkTrackItem w c a = .ok r ↔
      (c.length = 2 ∨ c.length = 3) ∧ a.length ≤ 3 ∧ r = ⟨w, c, some (anglesFrom a)⟩ := by
  simp only [mkTrackItem, mkPoint]
  by_cases h : c.length = 2 ∨ c.length = 3
  · simp only [h, if_true, true_and]
    by_cases h3 : a.length ≤ 3
    · rw [mkAngle_ok h3]; simp [h3, eq_comm]
    · cases hm : mkAngle a with
      | error e => simp [h3]
      | ok x => exact absurd (mkAngle_iff.mp hm).1 h3
  · simp [h]

theorem zipItems2_iff {cs as : List (Pt F)} {rs : List (TrackItem F)} :
    zipItems2 cs as = .ok rs ↔ as.length ≤ cs.length ∧ (∀ c ∈ cs, c.length = 2 ∨ c.length = 3) ∧
      (∀ a ∈ as, a.length ≤ 3) ∧ Rows [] cs as rs := by
  induction cs generalizing as rs with
  | nil =>
    cases as with
    | nil => cases rs <;> simp [zipItems2, Rows]
    | cons a as => simp [zipItems2]
  | cons c cs ih =>
    simp only [zipItems2]
    have key : (∃ r rs', mkTrackItem none c (as.headD []) = .ok r ∧ zipItems2 cs as.tail = .ok rs' ∧ rs = r :: rs') ↔
        as.length ≤ (c :: cs).length ∧ (∀ x ∈ c :: cs, x.length = 2 ∨ x.length = 3) ∧
        (∀ a ∈ as, a.length ≤ 3) ∧ Rows [] (c :: cs) as rs := by
      constructor
      · rintro ⟨r, rs', h1, h2, rfl⟩
        obtain ⟨a1, a2, a3⟩ := mkTrackItem_iff.mp h1
        obtain ⟨b1, b2, b3, b4, b5⟩ := ih.mp h2
        refine ⟨?_, ?_, ?_, ?_, ?_⟩
        · cases as <;> simp at b1 ⊢; exact b1
        · exact fun x hx => (List.mem_cons.mp hx).elim (fun h => h ▸ a1) (b2 x)
        · cases as with
          | nil => simp
          | cons a as =>
            exact fun x hx => (List.mem_cons.mp hx).elim (fun h => h ▸ a2) (b3 x)
        · simp [b4]
        · intro k c' hk
          cases k with
          | zero =>
            simp only [List.getElem?_cons_zero, Option.some.injEq] at hk
            subst hk
            cases as <;> simp [a3]
          | succ k =>
            simp only [List.getElem?_cons_succ] at hk
            have := b5 k c' hk
            cases as <;> simpa using this
      · rintro ⟨h1, h2, h3, h4, h5⟩
        cases rs with
        | nil => simp at h4
        | cons r rs' =>
          refine ⟨r, rs', mkTrackItem_iff.mpr ⟨h2 c (List.mem_cons_self ..), ?_, ?_⟩, ih.mpr ⟨?_, ?_, ?_, ?_, ?_⟩, rfl⟩
          · cases as with
            | nil => simp
            | cons a as => exact h3 a (List.mem_cons_self ..)
          · have := h5 0 c rfl
            cases as <;> simpa using this
          · cases as <;> simp at h1 ⊢; exact h1
          · exact fun x hx => h2 x (List.mem_cons_of_mem _ hx)
          · cases as with
            | nil => simp
            | cons a as => exact fun x hx => h3 x (List.mem_cons_of_mem _ hx)
          · simpa using h4
          · intro k c' hk
            have := h5 (k + 1) c' (by simpa using hk)
            cases as <;> simpa using this
    rw [← key]
    constructor
    · intro h
      split at h
      · cases h
      · cases h
      · rename_i r rs' h1 h2; cases h; exact ⟨r, rs', h1, h2, rfl⟩
    · rintro ⟨r, rs', h1, h2, rfl⟩
      rw [h1, h2]

/-- Exactly when the rows can be made, and what they are. -/
theorem zipItems_iff {ws : List (Option KmlDateTime)} {cs as : List (Pt F)} {rs : List (TrackItem F)} :
    zipItems ws cs as = .ok rs ↔ ws.length ≤ cs.length ∧ as.length ≤ cs.length ∧
      (∀ c ∈ cs, c.length = 2 ∨ c.length = 3) ∧ (∀ a ∈ as, a.length ≤ 3) ∧ Rows ws cs as rs := by
  induction ws generalizing cs as rs with
  | nil => rw [zipItems, zipItems2_iff]; simp
  | cons w ws ih =>
    simp only [zipItems]
    cases cs with
    | nil =>
      have : ∀ x, mkTrackItem w ([] : Pt F) (as.headD []) ≠ .ok x := fun x h => by
        have := (mkTrackItem_iff.mp h).1; simp at this
      refine ⟨fun h => ?_, fun h => absurd h.1 (by simp)⟩
      simp only [List.headD_nil] at h
      split at h
      · cases h
      · cases h
      · rename_i h1 _; exact absurd h1 (this _)
    | cons c cs =>
      simp only [List.headD_cons, List.tail_cons]
      have key : (∃ r rs', mkTrackItem w c (as.headD []) = .ok r ∧ zipItems ws cs as.tail = .ok rs' ∧ rs = r :: rs') ↔
          (w :: ws).length ≤ (c :: cs).length ∧
          as.length ≤ (c :: cs).length ∧ (∀ x ∈ c :: cs, x.length = 2 ∨ x.length = 3) ∧
          (∀ a ∈ as, a.length ≤ 3) ∧ Rows (w :: ws) (c :: cs) as rs := by
        constructor
        · rintro ⟨r, rs', h1, h2, rfl⟩
          obtain ⟨a1, a2, a3⟩ := mkTrackItem_iff.mp h1
          obtain ⟨b0, b1, b2, b3, b4, b5⟩ := ih.mp h2
          refine ⟨by simpa using b0, ?_, ?_, ?_, ?_, ?_⟩
          · cases as <;> simp at b1 ⊢; exact b1
          · exact fun x hx => (List.mem_cons.mp hx).elim (fun h => h ▸ a1) (b2 x)
          · cases as with
            | nil => simp
            | cons a as =>
              exact fun x hx => (List.mem_cons.mp hx).elim (fun h => h ▸ a2) (b3 x)
          · simp [b4]
          · intro k c' hk
            cases k with
            | zero =>
              simp only [List.getElem?_cons_zero, Option.some.injEq] at hk
              subst hk
              cases as <;> simp [a3]
            | succ k =>
              simp only [List.getElem?_cons_succ] at hk
              have := b5 k c' hk
              cases as <;> simpa using this
        · rintro ⟨h0, h1, h2, h3, h4, h5⟩
          cases rs with
          | nil => simp at h4
          | cons r rs' =>
            refine ⟨r, rs', mkTrackItem_iff.mpr ⟨h2 c (List.mem_cons_self ..), ?_, ?_⟩,
              ih.mpr ⟨by simpa using h0, ?_, ?_, ?_, ?_, ?_⟩, rfl⟩
            · cases as with
              | nil => simp
              | cons a as => exact h3 a (List.mem_cons_self ..)
            · have := h5 0 c rfl
              cases as <;> simpa using this
            · cases as <;> simp at h1 ⊢; exact h1
            · exact fun x hx => h2 x (List.mem_cons_of_mem _ hx)
            · cases as with
              | nil => simp
              | cons a as => exact fun x hx => h3 x (List.mem_cons_of_mem _ hx)
            · simpa using h4
            · intro k c' hk
              have := h5 (k + 1) c' (by simpa using hk)
              cases as <;> simpa using this
      rw [← key]
      constructor
      · intro h
        split at h
        · cases h
        · cases h
        · rename_i r rs' h1 h2; cases h; exact ⟨r, rs', h1, h2, rfl⟩
      · rintro ⟨r, rs', h1, h2, rfl⟩
        rw [h1, h2]

theorem init_track_ok {ns : Option Str} {nss : NsMap} {kw : List (Str × Val Cls F)} {rs : List (TrackItem F)}
    (h : trackItems kw = .ok rs)
    (hi : kwGet (s% "id") kw = .none ∨ ∃ s, kwGet (s% "id") kw = .str s)
    (ht : kwGet (s% "target_id") kw = .none ∨ ∃ s, kwGet (s% "target_id") kw = .str s) :
    ∃ v, init fastkml .Track ns nss kw = .ok v := by
  simp only [init, construct, show (fastkml.info .Track).special = .track from rfl,
    show (fastkml.info .Track).kwargs = true from rfl, specialInit, h,
    Bool.true_eq_false, and_false, if_false]
  have : ∃ sl, fillSlots fastkml kw (fastkml.info .Track).slots = .ok sl := by
    show ∃ sl, fillSlots fastkml kw [((s% "extended_data"), .raw), ((s% "id"), .orEmpty),
      ((s% "target_id"), .orEmpty), ((s% "altitude_mode"), .raw)] = .ok sl
    rcases hi with hi | ⟨s, hi⟩ <;> rcases ht with ht | ⟨t, ht⟩ <;>
      simp [fillSlots, normalise, hi, ht]
  obtain ⟨sl, hsl⟩ := this
  rw [hsl]
  exact ⟨_, rfl⟩

theorem init_track_rows {ns : Option Str} {nss : NsMap} {kw : List (Str × Val Cls F)} {v : Val Cls F}
    (h : init fastkml .Track ns nss kw = .ok v) :
    ∃ ns' attrs, v = .obj .Track ns' (mergeNs nss) attrs ∧ trackItems kw = .ok (rows attrs) := by
  simp only [init, construct, show (fastkml.info .Track).special = .track from rfl,
    show (fastkml.info .Track).kwargs = true from rfl, specialInit,
    Bool.true_eq_false, and_false, if_false] at h
  split at h
  · cases h
  · rename_i sp hsp
    split at hsp
    · cases hsp
    · rename_i l hl
      cases hsp
      split at h
      · cases h
      · rename_i sl hsl
        cases h
        refine ⟨_, _, rfl, ?_⟩
        rw [hl]
        have : dget (s% "track_items") (kw.filter (fun p => decide (p.1 ∉
            specialArgs Special.track ++ (fastkml.info .Track).slots.map Prod.fst))) = none := by
          rw [dget_eq_none]
          intro h
          obtain ⟨p, hp, he⟩ := List.mem_map.mp h
          simp only [List.mem_filter, decide_eq_true_eq] at hp
          apply hp.2
          rw [he]
          decide
        simp only [rows, Spec.attr, dget_append, this, dget, Option.none_or, if_true, Option.getD_some, Option.some_or]

/-- **C32.** A track made of times and positions has one row per position: row `k`
has the `k`-th time, the `k`-th position and the `k`-th angle; missing angles are
`(0.0, 0.0, 0.0)`, and rows for which there is no time have the garbage value `()`
(`none` here).  If there are more times or angles than positions, or a position
does not have two or three components or an angle has more than three, the
constructor raises `TypeError`. -/
theorem C32_rows (ns : Option Str) (nss : NsMap) {kw : List (Str × Val Cls F)}
    {ws : List (Option KmlDateTime)} {cs as : List (Pt F)}
    (h0 : kwGet (s% "track_items") kw = .none) (h1 : kwGet (s% "whens") kw = .whens ws)
    (h2 : kwGet (s% "coords") kw = .coords cs) (h3 : Given .coords (kwGet (s% "angles") kw) as)
    (hw : ws ≠ []) (hc : cs ≠ [])
    (hi : kwGet (s% "id") kw = .none ∨ ∃ s, kwGet (s% "id") kw = .str s)
    (ht : kwGet (s% "target_id") kw = .none ∨ ∃ s, kwGet (s% "target_id") kw = .str s) :
    (∃ ns' attrs, init fastkml .Track ns nss kw = .ok (.obj .Track ns' (mergeNs nss) attrs) ∧
      Rows ws cs as (rows attrs) ∧
      ws.length ≤ cs.length ∧ as.length ≤ cs.length ∧ (∀ c ∈ cs, c.length = 2 ∨ c.length = 3) ∧
      ∀ a ∈ as, a.length ≤ 3) ∨
    (init fastkml .Track ns nss kw = .error .typeError ∧
      ¬ (ws.length ≤ cs.length ∧ as.length ≤ cs.length ∧ (∀ c ∈ cs, c.length = 2 ∨ c.length = 3) ∧
      ∀ a ∈ as, a.length ≤ 3)) := by
  have hti : trackItems kw = zipItems ws cs as := by
    rw [trackItems_given (ti := []) (Or.inr ⟨h0, rfl⟩) (Or.inl h1) (Or.inl h2) h3]
    simp [hw, hc]
  cases hz : zipItems ws cs as with
  | ok rs =>
    obtain ⟨v, hv⟩ := init_track_ok (ns := ns) (nss := nss) (hti.trans hz) hi ht
    obtain ⟨ns', attrs, rfl, hr⟩ := init_track_rows hv
    rw [hti, hz] at hr
    cases hr
    obtain ⟨a1, a2, a3, a4, a5⟩ := zipItems_iff.mp hz
    exact Or.inl ⟨ns', attrs, hv, a5, a1, a2, a3, a4⟩
  | error e =>
    have := zipItems_error hz
    subst this
    refine Or.inr ⟨?_, ?_⟩
    · simp only [init, construct, show (fastkml.info .Track).special = .track from rfl,
        show (fastkml.info .Track).kwargs = true from rfl, specialInit, hti, hz,
        Bool.true_eq_false, and_false, if_false]
    · rintro ⟨a1, a2, a3, a4⟩
      have : ∃ rs : List (TrackItem F), Rows ws cs as rs := by
        refine ⟨cs.zipIdx.map fun p => ⟨ws[p.2]?.join, p.1, some (anglesFrom (as[p.2]?.getD []))⟩, by simp, ?_⟩
        intro k c hk
        simp [hk]
      obtain ⟨rs, hrs⟩ := this
      rw [zipItems_iff.mpr ⟨a1, a2, a3, a4, hrs⟩] at hz
      cases hz

/-- **C32.** A track made of equally many times, positions (of two or three numbers)
and angles (of three numbers) has exactly these times, positions and angles. -/
theorem C32_same (ns : Option Str) (nss : NsMap) {kw : List (Str × Val Cls F)}
    {ws : List (Option KmlDateTime)} {cs as : List (Pt F)}
    (h0 : kwGet (s% "track_items") kw = .none) (h1 : kwGet (s% "whens") kw = .whens ws)
    (h2 : kwGet (s% "coords") kw = .coords cs) (h3 : kwGet (s% "angles") kw = .coords as)
    (hw : ws.length = cs.length) (ha : as.length = cs.length)
    (hcs : ∀ c ∈ cs, NormalPoint c) (has : ∀ a ∈ as, a.length = 3)
    {c : Cls} {ns' : Str} {nss' : NsMap} {attrs : List (Str × Val Cls F)}
    (hv : init fastkml .Track ns nss kw = .ok (.obj c ns' nss' attrs)) :
    value fastkml c attrs (s% "whens") = .whens ws ∧
    value fastkml c attrs (s% "coords") = .coords cs ∧
    value fastkml c attrs (s% "angles") = .coords as := by
  obtain ⟨n, at', he, hr⟩ := init_track_rows hv
  cases he
  rw [trackItems_given (ti := []) (Or.inr ⟨h0, rfl⟩) (Or.inl h1) (Or.inl h2) (Or.inl h3)] at hr
  have hrows : Rows ws cs as (rows attrs) := by
    by_cases hn : cs = []
    · subst hn
      have hw : ws = [] := by simpa using hw
      subst hw
      simp only [ne_eq, not_true_eq_false, false_and, and_false, or_self, if_false, Except.ok.injEq] at hr
      rw [← hr]
      exact ⟨rfl, by simp⟩
    · have : ws ≠ [] := by rintro rfl; exact hn (List.length_eq_zero_iff.mp hw.symm)
      simp only [ne_eq, not_true_eq_false, and_false, this, not_false_eq_true, hn, and_self, if_true,
        if_false] at hr
      exact (zipItems_iff.mp hr).2.2.2.2
  obtain ⟨hl, hk⟩ := hrows
  have e1 : (rows attrs).map (·.when_) = ws := by
    apply List.ext_getElem?
    intro k
    rw [List.getElem?_map]
    cases hc : cs[k]? with
    | none =>
      have : cs.length ≤ k := by simpa using hc
      rw [List.getElem?_eq_none (by omega), List.getElem?_eq_none (by omega)]
      rfl
    | some c =>
      rw [hk k c hc]
      have : k < ws.length := by
        have := (List.getElem?_eq_some_iff.mp hc).1
        omega
      simp [List.getElem?_eq_getElem this]
  have e2 : (rows attrs).map (·.coord) = cs := by
    apply List.ext_getElem?
    intro k
    rw [List.getElem?_map]
    cases hc : cs[k]? with
    | none =>
      have : cs.length ≤ k := by simpa using hc
      rw [List.getElem?_eq_none (by omega)]
      rfl
    | some c => rw [hk k c hc]; rfl
  have e3 : ((rows attrs).map (·.angle)) = as.map (fun a => some (anglesFrom a)) := by
    apply List.ext_getElem?
    intro k
    rw [List.getElem?_map, List.getElem?_map]
    cases hc : cs[k]? with
    | none =>
      have : cs.length ≤ k := by simpa using hc
      rw [List.getElem?_eq_none (by omega), List.getElem?_eq_none (by omega)]
      rfl
    | some c =>
      rw [hk k c hc]
      have : k < as.length := by
        have := (List.getElem?_eq_some_iff.mp hc).1
        omega
      simp [List.getElem?_eq_getElem this]
  have ht : (fastkml.info .Track).special = .track := rfl
  refine ⟨?_, ?_, ?_⟩
  · simp only [value, ht, true_and, if_true, e1]
  · rw [value, if_neg (by decide), if_pos (by decide), e2, List.filter_eq_self.mpr]
    intro p hp
    rw [ptEmpty_false.mpr (hcs p hp).2]
    rfl
  · rw [value, if_neg (by decide), if_neg (by decide), if_pos (by decide)]
    congr 1
    have : (rows attrs).filterMap (·.angle) = as.map anglesFrom := by
      have : (rows attrs).filterMap (·.angle) = ((rows attrs).map (·.angle)).filterMap id := by
        rw [List.filterMap_map]; rfl
      rw [this, e3, List.filterMap_map]
      simp [Function.comp_def]
    rw [this, List.map_map]
    conv => rhs; rw [← List.map_id as]
    apply List.map_congr_left
    intro a ha
    match a, has a ha with
    | [x, y, z], _ => rfl

/-- **C32.** Writing a track and reading it back preserves its rows. -/
theorem C32_roundtrip [LawfulExt F] {ns : Str} {nss : NsMap} {attrs : List (Str × Val Cls F)}
    (ht : typed fastkml dim23 (.obj .Track ns nss attrs) = true) {M : NsMap} (hM : NsOk M) {vb : Verbosity}
    (hr : Everywhere (Readable fastkml ⟨none, vb⟩ (mergeNs M)) (.obj .Track ns nss attrs)) (strict : Bool) :
    ∃ e attrs', ser fastkml ⟨none, vb⟩ (.obj .Track ns nss attrs) = .ok e ∧
      fromElement fastkml strict .Track (some ns) M e = .ok (.obj .Track ns (mergeNs M) attrs') ∧
      rows attrs' = rows attrs := by
  obtain ⟨e, h1, h2⟩ := C02_cycle ht hM hr strict
  refine ⟨e, cycleStep fastkml ⟨none, vb⟩ .Track attrs (cycleAttrs fastkml ⟨none, vb⟩ (mergeNs M) attrs), h1, ?_, ?_⟩
  · rw [h2, cycle]
  · simp only [cycleStep, show (fastkml.info .Track).special = .track from rfl, if_true]
    have : ∀ r : TrackItem F, rereadRow none r = r := by
      intro r
      obtain ⟨w, c, a⟩ := r
      have : (roundTo none : F → F) = id := rfl
      simp only [rereadRow, this, List.map_id, id]
      cases a <;> rfl
    simp only [List.singleton_append]
    rw [rows, Spec.attr]
    simp only [dget, if_true, Option.getD_some]
    rw [List.map_congr_left (fun r _ => this r), List.map_id']

/-! ## C33 Reading -/

theorem getDts_filterMap {strict : Bool} {l : List Xml} {r : List (Option KmlDateTime)}
    (h : getDts (PyExt.arrowGet F) strict l = .ok r) :
    r = (l.filterMap (timeIn F)).map some ∧ (strict = true → ∀ k ∈ l, (timeIn F k).isSome) := by
  induction l generalizing r with
  | nil => cases h; simp
  | cons k l ih =>
    simp only [getDts] at h
    split at h
    · cases h
    · rename_i t ht
      split at h
      · rename_i d hd
        split at h
        · cases h
        · rename_i r' hr'
          cases h
          obtain ⟨h1, h2⟩ := ih hr'
          have : timeIn F k = some d := by simp [timeIn, ht, hd]
          simp [List.filterMap_cons, this, h1]
          exact h2
      · rename_i hd
        split at h
        · cases h
        · rename_i hh
          obtain ⟨h1, h2⟩ := ih h
          have : timeIn F k = none := by simp [timeIn, ht, hd]
          refine ⟨by simp [List.filterMap_cons, this, h1], ?_⟩
          rintro rfl
          simp [handleError] at hh

theorem getCoordArgs_filterMap {strict : Bool} {l : List Xml} {r : List (Pt F)}
    (h : getCoordArgs strict l = .ok r) : r = l.filterMap numbersIn := by
  induction l generalizing r with
  | nil => cases h; rfl
  | cons k l ih =>
    simp only [getCoordArgs] at h
    split at h
    · rename_i ht
      rw [ih h]
      simp [List.filterMap_cons, numbersIn, ht]
    · rename_i t ht
      by_cases he : t = []
      · subst he
        simp only [List.isEmpty_nil, if_true] at h
        rw [ih h]
        simp [List.filterMap_cons, numbersIn, ht]
      · have : t.isEmpty = false := by simpa using he
        simp only [this, Bool.false_eq_true, if_false] at h
        split at h
        · rename_i c hc
          split at h
          · cases h
          · rename_i r' hr'
            cases h
            simp [List.filterMap_cons, numbersIn, ht, he, hc, ← ih hr']
        · rename_i hc
          split at h
          · cases h
          · rw [ih h]
            simp [List.filterMap_cons, numbersIn, ht, he, hc]

theorem tryNs_times {it : Item Cls} (hg : it.get = .subDtList) {strict : Bool} {N : NsMap} {e : Xml}
    {kids : List (Kid Cls F)} {ids : List Str} {o : Option (Val Cls F)}
    (h : tryNs fastkml it strict N e kids ids = .ok o) :
    Given .whens (o.getD .none) ((gathered (timeIn F) N e it.node ids).map some) := by
  induction ids with
  | nil => cases h; exact Or.inr ⟨rfl, rfl⟩
  | cons id ids ih =>
    simp only [tryNs, getKwarg, hg] at h
    simp only [gathered]
    cases hd : getDts (PyExt.arrowGet F) strict (e.findall (nsGet N id ++ it.node)) with
    | error x => rw [hd] at h; cases h
    | ok r =>
      obtain ⟨h1, _⟩ := getDts_filterMap hd
      rw [hd, h1] at h
      cases hf : (e.findall (nsGet N id ++ it.node)).filterMap (timeIn F) with
      | nil => rw [hf] at h; exact ih h
      | cons a l => rw [hf] at h; cases h; exact Or.inl rfl

theorem tryNs_numbers {it : Item Cls} (hg : it.get = .coordsList) {strict : Bool} {N : NsMap} {e : Xml}
    {kids : List (Kid Cls F)} {ids : List Str} {o : Option (Val Cls F)}
    (h : tryNs fastkml it strict N e kids ids = .ok o) :
    Given .coords (o.getD .none) (gathered numbersIn N e it.node ids) := by
  induction ids with
  | nil => cases h; exact Or.inr ⟨rfl, rfl⟩
  | cons id ids ih =>
    simp only [tryNs, getKwarg, hg] at h
    simp only [gathered]
    cases hd : getCoordArgs (F := F) strict (e.findall (nsGet N id ++ it.node)) with
    | error x => rw [hd] at h; cases h
    | ok r =>
      have h1 := getCoordArgs_filterMap hd
      rw [hd, h1] at h
      cases hf : (e.findall (nsGet N id ++ it.node)).filterMap (numbersIn (F := F)) with
      | nil => rw [hf] at h; exact ih h
      | cons a l => rw [hf] at h; cases h; exact Or.inl rfl

theorem trackItems_mem {a : Str} {g : GetFn} {node : Str} {ids : List Str}
    (h : ∃ it ∈ items_Track, it.attr = a ∧ it.get = g ∧ it.node = node ∧ it.nsIds = ids) :
    ∃ it ∈ fastkml.itemsOf .Track, it.attr = a ∧ it.get = g ∧ it.node = node ∧ it.nsIds = ids := by
  obtain ⟨it, hit, h⟩ := h
  refine ⟨it, ?_, h⟩
  have : ∀ it ∈ items_Track, it ∈ fastkml.itemsOf .Track := by decide +kernel
  exact this it hit

/-- **C33.** The rows of a track that was read: the readable times, positions and
angles are paired in order, whatever was dropped before them. -/
theorem C33_rows {strict : Bool} {e : Xml} {ns : Str} {nss : NsMap} {c : Cls} {ns' : Str} {nss' : NsMap}
    {attrs : List (Str × Val Cls F)} (h : parse fastkml strict e .Track ns nss = .ok (.obj c ns' nss' attrs)) :
    if timesOf F (mergeNs nss) e = [] ∨ positionsOf (F := F) (mergeNs nss) e = [] then rows attrs = []
    else Rows ((timesOf F (mergeNs nss) e).map some) (positionsOf (mergeNs nss) e) (anglesOf (mergeNs nss) e)
        (rows attrs) ∧
      (timesOf F (mergeNs nss) e).length ≤ (positionsOf (F := F) (mergeNs nss) e).length := by
  have hR := fastkml_readOk (.Track : Cls)
  obtain ⟨r, hr, hc⟩ := parse_ok hR h
  have hin : init fastkml .Track (some ns) (mergeNs nss) (kwOf r (fastkml.itemsOf .Track)) =
    .ok (.obj c ns' nss' attrs) := hc
  obtain ⟨_, _, he, hti⟩ := init_track_rows hin
  cases he
  have get : ∀ it ∈ fastkml.itemsOf .Track, kwGet it.attr (kwOf r (fastkml.itemsOf .Track)) = (r it).getD .none := by
    intro it hit
    rw [kwGet, dget_kwOf hR.attrs hit]
  obtain ⟨i1, m1, a1, g1, n1, d1⟩ := trackItems_mem (a := s% "whens") (g := .subDtList) (node := s% "when")
    (ids := [s% "kml", s% "gx", []]) (by decide)
  obtain ⟨i2, m2, a2, g2, n2, d2⟩ := trackItems_mem (a := s% "coords") (g := .coordsList) (node := s% "coord")
    (ids := [s% "gx", []]) (by decide)
  obtain ⟨i3, m3, a3, g3, n3, d3⟩ := trackItems_mem (a := s% "angles") (g := .coordsList) (node := s% "angles")
    (ids := [s% "gx", []]) (by decide)
  have k1 := tryNs_times g1 (hr i1 m1)
  have k2 := tryNs_numbers g2 (hr i2 m2)
  have k3 := tryNs_numbers g3 (hr i3 m3)
  rw [← get i1 m1, a1, n1, d1] at k1
  rw [← get i2 m2, a2, n2, d2] at k2
  rw [← get i3 m3, a3, n3, d3] at k3
  have k0 : kwGet (s% "track_items") (kwOf r (fastkml.itemsOf .Track)) = .none := by
    have : dget (s% "track_items") (kwOf r (fastkml.itemsOf .Track)) = none := by
      rw [dget_eq_none]
      intro hm
      exact absurd (kwOf_keys hm) (by decide +kernel)
    simp [kwGet, this]
  rw [trackItems_given (ti := []) (Or.inr ⟨k0, rfl⟩) k1 k2 k3] at hti
  have ef : ∀ l : List KmlDateTime, l.map some ≠ [] ↔ l ≠ [] := by intro l; cases l <;> simp
  change (if ((timesOf F (mergeNs nss) e).map some ≠ [] ∨ positionsOf (F := F) (mergeNs nss) e ≠ []) ∧ [] ≠ [] then _
    else if [] = [] ∧ (timesOf F (mergeNs nss) e).map some ≠ [] ∧ positionsOf (F := F) (mergeNs nss) e ≠ [] then
      zipItems ((timesOf F (mergeNs nss) e).map some) (positionsOf (mergeNs nss) e) (anglesOf (mergeNs nss) e)
    else _) = _ at hti
  by_cases hn : timesOf F (mergeNs nss) e = [] ∨ positionsOf (F := F) (mergeNs nss) e = []
  · rw [if_pos hn]
    rw [if_neg (by simp), if_neg (by rintro ⟨_, h1, h2⟩; exact hn.elim ((ef _).mp h1) h2)] at hti
    exact (Except.ok.inj hti).symm
  · rw [if_neg hn]
    rw [not_or] at hn
    rw [if_neg (by simp), if_pos ⟨rfl, (ef _).mpr hn.1, hn.2⟩] at hti
    obtain ⟨h1, _, _, _, h5⟩ := zipItems_iff.mp hti
    exact ⟨h5, by simpa using h1⟩

theorem filterMap_all {α β : Type} {f : α → Option β} {l : List α} (h : ∀ x ∈ l, (f x).isSome) :
    ∀ k : Nat, (l.filterMap f)[k]? = l[k]?.bind f := by
  induction l with
  | nil => simp
  | cons a l ih =>
    intro k
    obtain ⟨b, hb⟩ := Option.isSome_iff_exists.mp (h a (List.mem_cons_self ..))
    rw [List.filterMap_cons, hb]
    cases k with
    | zero => simp [hb]
    | succ k => simpa using ih (fun x hx => h x (List.mem_cons_of_mem _ hx)) k

theorem filterMap_length_all {α β : Type} {f : α → Option β} {l : List α}
    (h : l.length ≤ (l.filterMap f).length) : ∀ x ∈ l, (f x).isSome := by
  induction l with
  | nil => simp
  | cons a l ih =>
    have hle := List.length_filterMap_le f l
    cases hf : f a with
    | none =>
      simp only [List.filterMap_cons, hf, List.length_cons] at h
      omega
    | some b =>
      simp only [List.filterMap_cons, hf, List.length_cons] at h
      intro x hx
      rcases List.mem_cons.mp hx with rfl | hx
      · simp [hf]
      · exact ih (by omega) x hx

theorem filterMap_length_eq {α β : Type} {f : α → Option β} {l : List α} (h : ∀ x ∈ l, (f x).isSome) :
    (l.filterMap f).length = l.length := by
  induction l with
  | nil => rfl
  | cons a l ih =>
    obtain ⟨b, hb⟩ := Option.isSome_iff_exists.mp (h a (List.mem_cons_self ..))
    simp [List.filterMap_cons, hb, ih fun x hx => h x (List.mem_cons_of_mem _ hx)]

theorem strict_times {e : Xml} {ns : Str} {nss : NsMap} {v : Val Cls F}
    (h : parse fastkml true e .Track ns nss = .ok v) :
    ∀ w ∈ e.findall (nsGet (mergeNs nss) (s% "kml") ++ s% "when"), (timeIn F w).isSome := by
  have hR := fastkml_readOk (.Track : Cls)
  obtain ⟨r, hr, _⟩ := parse_ok hR h
  obtain ⟨i1, m1, a1, g1, n1, d1⟩ := trackItems_mem (a := s% "whens") (g := .subDtList) (node := s% "when")
    (ids := [s% "kml", s% "gx", []]) (by decide)
  have h1 := hr i1 m1
  simp only [tryNs, getKwarg, g1, n1, d1] at h1
  cases hd : getDts (PyExt.arrowGet F) true (e.findall (nsGet (mergeNs nss) (s% "kml") ++ s% "when")) with
  | error x => rw [hd] at h1; cases h1
  | ok r => exact (getDts_filterMap hd).2 rfl

/-- **C33.** If all `when` elements can be read, which is certain in strict mode, and
there are as many `gx:coord` as `when` elements, then row `k` has the time of the `k`-th
`when` and the position of the `k`-th `gx:coord`. -/
theorem C33_paired {strict : Bool} {e : Xml} {ns : Str} {nss : NsMap} {c : Cls} {ns' : Str} {nss' : NsMap}
    {attrs : List (Str × Val Cls F)} (h : parse fastkml strict e .Track ns nss = .ok (.obj c ns' nss' attrs))
    {ws cs : List Xml} (hws : e.findall (nsGet (mergeNs nss) (s% "kml") ++ s% "when") = ws)
    (hcs : e.findall (nsGet (mergeNs nss) (s% "gx") ++ s% "coord") = cs)
    (hno : e.findall (nsGet (mergeNs nss) [] ++ s% "coord") = []) (hne : ws ≠ [])
    (hlen : ws.length = cs.length) (hok : strict = true ∨ ∀ w ∈ ws, (timeIn F w).isSome) :
    rows attrs = [] ∨
    (rows attrs).length = ws.length ∧ ∀ (k : Nat) (r : TrackItem F), (rows attrs)[k]? = some r →
      ∃ w p, ws[k]? = some w ∧ cs[k]? = some p ∧ timeIn F w = r.when_ ∧ numbersIn p = some r.coord := by
  have hall : ∀ w ∈ ws, (timeIn F w).isSome := by
    rcases hok with rfl | hok
    · rw [← hws]; exact strict_times h
    · exact hok
  have ht : timesOf F (mergeNs nss) e = ws.filterMap (timeIn F) := by
    simp only [timesOf, gathered, hws]
    split
    · rename_i hf
      have := filterMap_length_eq hall
      rw [hf] at this
      exact absurd (List.length_eq_zero_iff.mp this.symm) hne
    · rfl
  have hp : positionsOf (F := F) (mergeNs nss) e = cs.filterMap numbersIn := by
    simp only [positionsOf, gathered, hcs, hno]
    split
    · rename_i hf; rw [hf]; rfl
    · rfl
  have hrows := C33_rows h
  by_cases hn : timesOf F (mergeNs nss) e = [] ∨ positionsOf (F := F) (mergeNs nss) e = []
  · rw [if_pos hn] at hrows; exact Or.inl hrows
  · rw [if_neg hn, ht, hp] at hrows
    obtain ⟨⟨h1, h2⟩, h3⟩ := hrows
    have hcall := filterMap_length_all (f := numbersIn (F := F)) (l := cs) (by
      rw [filterMap_length_eq hall] at h3; omega)
    refine Or.inr ⟨by rw [h1, filterMap_length_eq hcall, hlen], ?_⟩
    intro k r hr
    have hk : k < (rows attrs).length := (List.getElem?_eq_some_iff.mp hr).1
    rw [h1, filterMap_length_eq hcall] at hk
    have hkw : k < ws.length := by omega
    have e1 := filterMap_all hcall k
    obtain ⟨p, hp'⟩ := Option.isSome_iff_exists.mp (hcall cs[k] (List.getElem_mem hk))
    rw [List.getElem?_eq_getElem hk, Option.bind_some, hp'] at e1
    have e2 := h2 k p e1
    rw [hr] at e2
    simp only [Option.some.injEq] at e2
    subst e2
    refine ⟨ws[k], cs[k], List.getElem?_eq_getElem hkw, List.getElem?_eq_getElem hk, ?_, hp'⟩
    obtain ⟨t, ht'⟩ := Option.isSome_iff_exists.mp (hall ws[k] (List.getElem_mem hkw))
    have e3 := filterMap_all hall k
    rw [List.getElem?_eq_getElem hkw, Option.bind_some, ht'] at e3
    simp [List.getElem?_map, e3, ht']

/-- Dropping the elements without a value moves none of the others iff all of them are
at the end. -/
theorem filterMap_own {α β : Type} (f : α → Option β) (l : List α) :
    (∀ (k : Nat) (x : α), l[k]? = some x → (l.filterMap f)[k]? = f x) ↔
      ∀ (i j : Nat) (x y : α), i < j → l[i]? = some x → l[j]? = some y → (f y).isSome → (f x).isSome := by
  induction l with
  | nil => simp
  | cons a l ih =>
    cases ha : f a with
    | some b =>
      rw [List.filterMap_cons, ha]
      have h1 : (∀ (k : Nat) (x : α), (a :: l)[k]? = some x → (b :: l.filterMap f)[k]? = f x) ↔
          ∀ (k : Nat) (x : α), l[k]? = some x → (l.filterMap f)[k]? = f x := by
        constructor
        · intro h k x hx
          simpa using h (k + 1) x (by simpa using hx)
        · intro h k x hx
          cases k with
          | zero => simp only [List.getElem?_cons_zero, Option.some.injEq] at hx ⊢; rw [← hx, ha]
          | succ k => simpa using h k x (by simpa using hx)
      simp only
      rw [h1, ih]
      constructor
      · intro h i j x y hij hx hy hf
        cases j with
        | zero => omega
        | succ j => cases i with
          | zero =>
            simp only [List.getElem?_cons_zero, Option.some.injEq] at hx
            rw [← hx, ha]; rfl
          | succ i => exact h i j x y (by omega) (by simpa using hx) (by simpa using hy) hf
      · intro h i j x y hij hx hy hf
        exact h (i + 1) (j + 1) x y (by omega) (by simpa using hx) (by simpa using hy) hf
    | none =>
      rw [List.filterMap_cons, ha]
      simp only
      constructor
      · intro h i j x y hij hx hy hf
        have h0 : (l.filterMap f)[0]? = none := by rw [h 0 a rfl, ha]
        have hnil : l.filterMap f = [] := by
          cases hl : l.filterMap f with
          | nil => rfl
          | cons b t => rw [hl] at h0; simp at h0
        cases j with
        | zero => omega
        | succ j =>
          have hm : y ∈ l := List.mem_of_getElem? (by simpa using hy)
          have := List.filterMap_eq_nil_iff.mp hnil y hm
          rw [this] at hf
          cases hf
      · intro h k x hx
        have hall : ∀ y ∈ l, f y = none := by
          intro y hy
          obtain ⟨j, hj⟩ := List.getElem?_of_mem hy
          cases hf : f y with
          | none => rfl
          | some b =>
            have := h 0 (j + 1) a y (by omega) rfl (by simpa using hj) (by rw [hf]; rfl)
            rw [ha] at this
            cases this
        rw [List.filterMap_eq_nil_iff.mpr hall]
        cases k with
        | zero =>
          simp only [List.getElem?_cons_zero, Option.some.injEq] at hx
          simp [← hx, ha]
        | succ k => simp [hall x (List.mem_of_getElem? (by simpa using hx))]

/-- **C33.** Exactly when lenient reading pairs correctly: if the positions can be read,
every position has its own time — none if that cannot be read — iff no `when` that can be
read comes after one that cannot. -/
theorem C33_exact {strict : Bool} {e : Xml} {ns : Str} {nss : NsMap} {c : Cls} {ns' : Str} {nss' : NsMap}
    {attrs : List (Str × Val Cls F)} (h : parse fastkml strict e .Track ns nss = .ok (.obj c ns' nss' attrs))
    {ws cs : List Xml} (hws : e.findall (nsGet (mergeNs nss) (s% "kml") ++ s% "when") = ws)
    (hcs : e.findall (nsGet (mergeNs nss) (s% "gx") ++ s% "coord") = cs)
    (hlen : ws.length = cs.length) (hsome : ∃ w ∈ ws, (timeIn F w).isSome)
    (hpos : ∀ p ∈ cs, (numbersIn (F := F) p).isSome) :
    (rows attrs).map (fun r => some r.coord) = cs.map numbersIn ∧
    ((rows attrs).map (fun r => r.when_) = ws.map (timeIn F) ↔
      ∀ (i j : Nat) (x y : Xml), i < j → ws[i]? = some x → ws[j]? = some y → (timeIn F y).isSome → (timeIn F x).isSome) := by
  obtain ⟨w0, hw0, hw1⟩ := hsome
  have ht : timesOf F (mergeNs nss) e = ws.filterMap (timeIn F) := by
    simp only [timesOf, gathered, hws]
    split
    · rename_i hf
      rw [List.filterMap_eq_nil_iff.mp hf w0 hw0] at hw1
      cases hw1
    · rfl
  have hne : ws.filterMap (timeIn F) ≠ [] := by
    intro hf
    rw [List.filterMap_eq_nil_iff.mp hf w0 hw0] at hw1
    cases hw1
  have hlc := filterMap_length_eq hpos
  have hcne : cs.filterMap (numbersIn (F := F)) ≠ [] := by
    intro hf
    rw [hf] at hlc
    have : ws = [] := List.length_eq_zero_iff.mp (hlen.trans hlc.symm)
    rw [this] at hw0
    cases hw0
  have hp : positionsOf (F := F) (mergeNs nss) e = cs.filterMap numbersIn := by
    simp only [positionsOf, gathered, hcs]
  have hrows := C33_rows h
  rw [ht, hp, if_neg (by simp [hne, hcne])] at hrows
  obtain ⟨⟨h1, h2⟩, _⟩ := hrows
  have hrl : (rows attrs).length = cs.length := by rw [h1, hlc]
  have row : ∀ (k : Nat) (p : Xml), cs[k]? = some p → ∃ q, numbersIn p = some q ∧ (rows attrs)[k]? =
      some (TrackItem.mk (ws.filterMap (timeIn F))[k]? q (some (anglesFrom ((anglesOf (mergeNs nss) e)[k]?.getD [])))) := by
    intro k p hk
    obtain ⟨q, hq⟩ := Option.isSome_iff_exists.mp (hpos p (List.mem_of_getElem? hk))
    have e1 := filterMap_all hpos k
    rw [hk, Option.bind_some, hq] at e1
    refine ⟨q, hq, ?_⟩
    rw [h2 k q e1]
    simp only [List.getElem?_map]
    cases (ws.filterMap (timeIn F))[k]? <;> rfl
  have none_iff : ∀ k : Nat, (rows attrs)[k]? = none ↔ cs[k]? = none := by
    intro k; simp only [List.getElem?_eq_none_iff, hrl]
  refine ⟨List.ext_getElem? fun k => ?_, ?_⟩
  · cases hk : cs[k]? with
    | none => simp [List.getElem?_map, hk, (none_iff k).mpr hk]
    | some p =>
      obtain ⟨q, hq, hr⟩ := row k p hk
      simp [List.getElem?_map, hk, hr, hq]
  · rw [← filterMap_own]
    constructor
    · intro he k x hx
      have hk : k < cs.length := by
        have := (List.getElem?_eq_some_iff.mp hx).1; omega
      obtain ⟨q, hq, hr⟩ := row k _ (List.getElem?_eq_getElem hk)
      have := congrArg (fun l => l[k]?) he
      simpa [List.getElem?_map, hr, hx] using this
    · intro he
      refine List.ext_getElem? fun k => ?_
      cases hk : cs[k]? with
      | none =>
        have : ws[k]? = none := by
          rw [List.getElem?_eq_none_iff] at hk ⊢; omega
        simp [List.getElem?_map, this, (none_iff k).mpr hk]
      | some p =>
        obtain ⟨q, hq, hr⟩ := row k p hk
        have hkw : k < ws.length := by
          have := (List.getElem?_eq_some_iff.mp hk).1; omega
        have hx := List.getElem?_eq_getElem hkw
        simp [List.getElem?_map, hr, hx, he k _ hx]

/-- The Google namespace. -/
def gxNs : Str := s% "{http://www.google.com/kml/ext/2.2}"

/-- A track with the given times and positions. -/
def trackDoc (ws cs : List Str) : Xml := .mk (gxNs ++ s% "Track") [] none
  (ws.map (fun w => .leaf (kmlNs ++ s% "when") w) ++ cs.map fun c => .leaf (gxNs ++ s% "coord") c)

/-- The rows of a track that was read. -/
def rowsOf (r : Except Err (Val Cls Fix)) : Option (List (TrackItem Fix)) :=
  match r with
  | .ok (.obj _ _ _ attrs) => some (rows attrs)
  | _ => none

/-- Three rows, the second with a malformed time. -/
def damagedTrack : Xml := trackDoc [s% "2020-01-01", s% "soon", s% "2020-01-03"] [s% "1 1", s% "2 2", s% "3 3"]

/-- **C33, disagreement.** In lenient mode a malformed time moves the later times up:
the second position gets the time of the third, and the third position gets
none. -/
theorem C33_mispaired : rowsOf (fromElement fastkml false .Track none [] damagedTrack) = some [
    ⟨some ⟨.date ⟨2020, 1, 1⟩, .date⟩, [fx 1000000, fx 1000000], some (fx 0, fx 0, fx 0)⟩,
    ⟨some ⟨.date ⟨2020, 1, 3⟩, .date⟩, [fx 2000000, fx 2000000], some (fx 0, fx 0, fx 0)⟩,
    ⟨none, [fx 3000000, fx 3000000], some (fx 0, fx 0, fx 0)⟩] := by decide +kernel

/-- C33_rows, C33_paired: a track that can be read in strict mode. -/
example : rowsOf (fromElement fastkml true .Track none []
    (trackDoc [s% "2020-01-01", s% "2020-01-03"] [s% "1 1", s% "2 2"])) = some [
    ⟨some ⟨.date ⟨2020, 1, 1⟩, .date⟩, [fx 1000000, fx 1000000], some (fx 0, fx 0, fx 0)⟩,
    ⟨some ⟨.date ⟨2020, 1, 3⟩, .date⟩, [fx 2000000, fx 2000000], some (fx 0, fx 0, fx 0)⟩] := by decide +kernel

/-- C33_exact: three positions; the last time cannot be read. -/
example : rowsOf (fromElement fastkml false .Track none []
    (trackDoc [s% "2020-01-01", s% "2020-01-03", s% "soon"] [s% "1 1", s% "2 2", s% "3 3"])) = some [
    ⟨some ⟨.date ⟨2020, 1, 1⟩, .date⟩, [fx 1000000, fx 1000000], some (fx 0, fx 0, fx 0)⟩,
    ⟨some ⟨.date ⟨2020, 1, 3⟩, .date⟩, [fx 2000000, fx 2000000], some (fx 0, fx 0, fx 0)⟩,
    ⟨none, [fx 3000000, fx 3000000], some (fx 0, fx 0, fx 0)⟩] := by decide +kernel

/-- C32_rows: three positions, two times, one angle. -/
example : ∃ attrs, newObj .Track [(s% "whens", .whens [some sampleWhen, some sampleWhen]),
    (s% "coords", .coords [[fx 1, fx 2], [fx 3, fx 4], [fx 5, fx 6]]), (s% "angles", .coords [[fx 7, fx 8]])] =
      .obj .Track gxNs N0 attrs ∧
    rows attrs = [⟨some sampleWhen, [fx 1, fx 2], some (fx 7, fx 8, fx 0)⟩,
      ⟨some sampleWhen, [fx 3, fx 4], some (fx 0, fx 0, fx 0)⟩, ⟨none, [fx 5, fx 6], some (fx 0, fx 0, fx 0)⟩] :=
  ⟨_, rfl, by decide +kernel⟩

/-! ## C34 MultiTrack -/

/-- A track is empty iff it has no rows. -/
theorem track_nonEmpty {ns : Str} {nss : NsMap} {attrs : List (Str × Val Cls F)} {rs : List (TrackItem F)}
    (h : attrOf (s% "track_items") attrs = .items rs) :
    nonEmpty fastkml (.obj .Track ns nss attrs) = !rs.isEmpty := by
  have : truthy fastkml (.obj .Track ns nss attrs) = boolStep (.allTruthy [(s% "track_items")])
      (infoAttrs fastkml attrs) (geomStep .track (infoAttrs fastkml attrs)) := by
    simp only [truthy, info, infoStep]; rfl
  rw [nonEmpty, this]
  simp only [boolStep, List.map_cons, List.map_nil, viewOf_infoAttrs, h, info, Info.plain]
  cases rs <;> rfl

/-- **C34.** The tracks of a `MultiTrack` are exactly the given ones that have rows,
in order. -/
theorem C34_tracks {ns : Option Str} {nss : NsMap} {kw : List (Str × Val Cls F)} {ts : List (Val Cls F)}
    (h : kwGet (s% "tracks") kw = .list ts)
    (ht : ∀ t ∈ ts, ∃ n m a rs, t = .obj .Track n m a ∧ attrOf (s% "track_items") a = .items rs)
    {c : Cls} {ns' : Str} {nss' : NsMap} {attrs : List (Str × Val Cls F)}
    (hv : init fastkml .MultiTrack ns nss kw = .ok (.obj c ns' nss' attrs)) :
    attrOf (s% "tracks") attrs = .list (ts.filter fun t => match t with
      | .obj _ _ _ a => !(rows a).isEmpty
      | _ => false) := by
  obtain ⟨n, at', w, he, h1, h2⟩ := init_slot hv (slots_nodup _) (a := s% "tracks") (n := .listTruthy) (by decide)
  cases he
  rw [h] at h1
  simp only [normalise] at h1
  split at h1
  · cases h1
  · rename_i l hl
    cases h1
    rw [h2, keepTruthy_filter hl]
    congr 1
    apply List.filter_congr
    intro t htm
    obtain ⟨n, m, a, rs, rfl, hrs⟩ := ht t htm
    rw [track_nonEmpty hrs]
    simp only [rows, show Spec.attr (s% "track_items") a = attrOf (s% "track_items") a from rfl, hrs]

theorem lines_filter (ls : List (List (Pt F))) :
    ((ls.map fun l => some (Geo.lineString l)).filterMap fun g => g).filter Geo.nonEmpty =
      (ls.filter fun l => !l.isEmpty).map .lineString := by
  induction ls with
  | nil => rfl
  | cons l ls ih =>
    simp only [List.map_cons, List.filterMap_cons, List.filter_cons, ih, Geo.nonEmpty]
    split <;> simp

/-- **C34.** The geometry of a `MultiTrack` has one line per track with a geometry
that is not empty, in order. -/
theorem C34_geometry {ns : Str} {nss : NsMap} {attrs : List (Str × Val Cls F)} {ts : List (Val Cls F)}
    {ls : List (List (Pt F))} (h : attrOf (s% "tracks") attrs = .list ts)
    (hg : ts.map (geometry fastkml) = ls.map fun l => .ok (some (.lineString l))) :
    geometry fastkml (.obj .MultiTrack ns nss attrs) =
      .ok (some (.multiLineString (ls.filter fun l => !l.isEmpty))) := by
  rw [geometry_obj]
  show geomStep .multiTrack _ = _
  have hs := someGeoms_filterMap (vs := ts) (gs := ls.map fun l => some (.lineString l)) (by
    rw [hg, List.map_map]; rfl)
  have e : ((ls.map fun l => some (Geo.lineString l)).filterMap fun g => g).filter Geo.nonEmpty =
      (ls.filter fun l => !l.isEmpty).map .lineString := by
    exact lines_filter ls
  simp only [geomStep, viewOf_infoAttrs, h, infoElems_list, truthyGeoms, hs, e, allLines_iff.mpr rfl]

/-- The geometry of a track is the line through its positions. -/
theorem C34_track {ns : Str} {nss : NsMap} {attrs : List (Str × Val Cls F)} {rs : List (TrackItem F)}
    (h : attrOf (s% "track_items") attrs = .items rs) (hn : NormalLine (rs.map (·.coord))) :
    geometry fastkml (.obj .Track ns nss attrs) = .ok (some (.lineString (rs.map (·.coord)))) := by
  rw [geometry_obj]
  show geomStep .track _ = _
  simp only [geomStep, viewOf_infoAttrs, h, trackGeom, mkLine_normal hn, liftGeo]

/-- Two tracks, one of them empty. -/
def sampleTracks : List (Val Cls Fix) := [newObj .Track [], raggedTrack]

/-- C34: the empty track is dropped, the geometry has one line. -/
example : ∃ attrs, newObj .MultiTrack [(s% "tracks", .list sampleTracks)] = .obj .MultiTrack gxNs N0 attrs ∧
    attrOf (s% "tracks") attrs = .list [raggedTrack] ∧
    geometry fastkml (.obj .MultiTrack gxNs N0 attrs) =
      .ok (some (.multiLineString [[[fx 1, fx 2], [fx 3, fx 4]]])) :=
  ⟨_, rfl, by decide +kernel, rfl⟩

end Verif
