import Verif.Spec.Typing
import Verif.Spec.Lists
import Verif.Lemmas.Val
import Verif.Lemmas.Construct
import Verif.Lemmas.Read

/-!
# Type soundness

Conditions on a class (`ClsOk`, decidable, checked for every class of fastkml in
`Verif/Lemmas/Fastkml.lean`) under which truth values, constructors, readers and
writers never hit an ill-typed case.
-/

set_option linter.unusedSectionVars false
set_option linter.unusedSimpArgs false

namespace Verif

open Spec

variable {C F : Type} [DecidableEq C]

theorem typedAttrs_iff {L : Lib C} {P : Pt F → Bool} {attrs : List (Str × Val C F)} :
    typedAttrs L P attrs = true ↔
      ∀ a v, (a, v) ∈ attrs → typed L P v = true ∧ typedElems L P v = true := by
  induction attrs with
  | nil => simp [typedAttrs]
  | cons p r ih =>
    obtain ⟨b, w⟩ := p
    simp only [typedAttrs, Bool.and_eq_true, ih, List.mem_cons, Prod.mk.injEq]
    constructor
    · rintro ⟨⟨h1, h2⟩, h3⟩ a v (⟨rfl, rfl⟩ | h)
      · exact ⟨h1, h2⟩
      · exact h3 a v h
    · intro h
      exact ⟨h b w (Or.inl ⟨rfl, rfl⟩), fun a v hv => h a v (Or.inr hv)⟩

theorem typedList_iff {L : Lib C} {P : Pt F → Bool} {l : List (Val C F)} :
    typedList L P l = true ↔ ∀ v ∈ l, typed L P v = true := by
  induction l with
  | nil => simp [typedList]
  | cons w r ih => simp [typedList, Bool.and_eq_true, ih]

theorem typedElems_iff {L : Lib C} {P : Pt F → Bool} {v : Val C F} :
    typedElems L P v = true ↔ ∀ l, v = .list l → ∀ w ∈ l, typed L P w = true := by
  cases v <;> simp [typedElems, typedList_iff]

theorem attr_eq (a : Str) (attrs : List (Str × Val C F)) : Spec.attr a attrs = attrOf a attrs := rfl

/-- What typing says about an object. -/
theorem typed_obj {L : Lib C} {P : Pt F → Bool} {c : C} {ns : Str} {nss : NsMap}
    {attrs : List (Str × Val C F)} :
    typed L P (.obj c ns nss attrs) = true ↔
      (∀ it ∈ L.itemsOf c, kindOk P it (attrOf it.attr attrs) = true) ∧
      ((L.info c).special = .track → trackOk attrs = true) ∧
      (∀ a v, (a, v) ∈ attrs → typed L P v = true) ∧
      (∀ a l, (a, .list l) ∈ attrs → ∀ w ∈ l, typed L P w = true) := by
  simp only [typed, objOk, Bool.and_eq_true, List.all_eq_true, Bool.or_eq_true, decide_eq_true_eq,
    typedAttrs_iff, typedElems_iff, attr_eq]
  constructor
  · rintro ⟨⟨h1, h2⟩, h3⟩
    refine ⟨h1, ?_, fun a v hv => (h3 a v hv).1, fun a l hl => (h3 a _ hl).2 l rfl⟩
    intro hs
    rcases h2 with h2 | h2
    · exact absurd hs h2
    · exact h2
  · rintro ⟨h1, h2, h3, h4⟩
    refine ⟨⟨h1, ?_⟩, fun a v hv => ⟨h3 a v hv, fun l hl => ?_⟩⟩
    · by_cases hs : (L.info c).special = .track
      · exact Or.inr (h2 hs)
      · exact Or.inl hs
    · subst hl; exact h4 a l hv

theorem typed_none {L : Lib C} {P : Pt F → Bool} : typed L P (.none : Val C F) = true := by
  simp [typed]

theorem typed_attrOf {L : Lib C} {P : Pt F → Bool} {c : C} {ns : Str} {nss : NsMap}
    {attrs : List (Str × Val C F)} (h : typed L P (.obj c ns nss attrs) = true) (a : Str) :
    typed L P (attrOf a attrs) = true := by
  by_cases hn : attrOf a attrs = .none
  · rw [hn]; exact typed_none
  · exact (typed_obj.mp h).2.2.1 a _ (attrOf_mem rfl hn)

theorem typed_member {L : Lib C} {P : Pt F → Bool} {c : C} {ns : Str} {nss : NsMap}
    {attrs : List (Str × Val C F)} (h : typed L P (.obj c ns nss attrs) = true) {a : Str}
    {l : List (Val C F)} (hl : attrOf a attrs = .list l) {w : Val C F} (hw : w ∈ l) :
    typed L P w = true :=
  (typed_obj.mp h).2.2.2 a l (attrOf_mem hl (by simp)) w hw

/-! ## Conditions on classes -/

/-- Some item for attribute `a`, with reader `g`, all of whose classes satisfy `Q`. -/
def hasItem (L : Lib C) (c : C) (a : Str) (g : GetFn) (Q : C → Bool) : Bool :=
  (L.itemsOf c).any fun it => decide (it.attr = a) && decide (it.get = g) &&
    it.classes.all fun t => match t with
      | .cls c' => Q c'
      | _ => false

/-- Some item for attribute `a` with reader `g`. -/
def hasGet (L : Lib C) (c : C) (a : Str) (g : GetFn) : Bool :=
  (L.itemsOf c).any fun it => decide (it.attr = a) && decide (it.get = g)

/-- The kinds of geometry whose errors are type errors only. -/
def flat : GeomKind → Bool
  | .point | .lineString | .linearRing | .boundary | .polygon | .multi => true
  | _ => false

/-- The class is like `Coordinates`. -/
def coordsCls (L : Lib C) (c : C) : Bool :=
  hasGet L c (s% "coords") .coordinates && decide ((L.info c).special ≠ .track)

/-- The attributes that the `geometry` property uses are registered for the right
classes. -/
def geomOk (L : Lib C) (c : C) : Bool :=
  match (L.info c).geom with
  | .none => true
  | .point | .lineString | .linearRing => hasItem L c (s% "kml_coordinates") .xmlSub (coordsCls L)
  | .boundary => hasItem L c (s% "kml_geometry") .xmlSub fun d => decide ((L.info d).geom = .linearRing)
  | .polygon =>
    (hasItem L c (s% "outer_boundary") .xmlSub fun d =>
      decide ((L.info d).geom = .boundary) && decide ((L.info d).bool = .geometry)) &&
    (hasItem L c (s% "inner_boundaries") .xmlSubList fun d => decide ((L.info d).geom = .boundary))
  | .multi => hasItem L c (s% "kml_geometries") .xmlSubList fun d => flat (L.info d).geom
  | .track => decide ((L.info c).special = .track)
  | .multiTrack => hasItem L c (s% "tracks") .xmlSubList fun d => decide ((L.info d).geom = .track)
  | .location => hasGet L c (s% "longitude") .subFloat && hasGet L c (s% "latitude") .subFloat &&
      hasGet L c (s% "altitude") .subFloat
  | .model => hasItem L c (s% "location") .xmlSub fun d => decide ((L.info d).geom ≠ .none)
  | .placemark => hasItem L c (s% "kml_geometry") .xmlSub fun d => decide ((L.info d).geom ≠ .none)

/-- The conditions that truth values need. -/
def boolOk (L : Lib C) (c : C) : Bool :=
  geomOk L c && (decide ((L.info c).bool ≠ .geometry) || flat (L.info c).geom)

theorem hasItem_iff {L : Lib C} {c : C} {a : Str} {g : GetFn} {Q : C → Bool}
    (h : hasItem L c a g Q = true) : ∃ it ∈ L.itemsOf c, it.attr = a ∧ it.get = g ∧
      ∀ d, .cls d ∈ it.classes → Q d = true := by
  simp only [hasItem, List.any_eq_true, Bool.and_eq_true, decide_eq_true_eq, List.all_eq_true] at h
  obtain ⟨it, hit, ⟨ha, hg⟩, hc⟩ := h
  exact ⟨it, hit, ha, hg, fun d hd => by simpa using hc _ hd⟩

theorem hasGet_iff {L : Lib C} {c : C} {a : Str} {g : GetFn}
    (h : hasGet L c a g = true) : ∃ it ∈ L.itemsOf c, it.attr = a ∧ it.get = g := by
  simp only [hasGet, List.any_eq_true, Bool.and_eq_true, decide_eq_true_eq] at h
  obtain ⟨it, hit, ha, hg⟩ := h
  exact ⟨it, hit, ha, hg⟩

/-- A registered sub-object is `None` or an instance of a good class. -/
theorem sub_cases {L : Lib C} {P : Pt F → Bool} {c : C} {ns : Str} {nss : NsMap}
    {attrs : List (Str × Val C F)} (ht : typed L P (.obj c ns nss attrs) = true) {a : Str}
    {Q : C → Bool} (h : hasItem L c a .xmlSub Q = true) :
    attrOf a attrs = .none ∨ ∃ d ns' nss' as, attrOf a attrs = .obj d ns' nss' as ∧ Q d = true := by
  obtain ⟨it, hit, rfl, hg, hQ⟩ := hasItem_iff h
  have hk := (typed_obj.mp ht).1 it hit
  simp only [kindOk, hg] at hk
  cases hv : attrOf it.attr attrs with
  | none => exact Or.inl rfl
  | obj d ns' nss' as =>
    rw [hv] at hk
    simp only [isInst, decide_eq_true_eq] at hk
    exact Or.inr ⟨d, ns', nss', as, rfl, hQ d hk⟩
  | _ => rw [hv] at hk; simp [isInst] at hk

/-- A registered list holds instances of good classes. -/
theorem list_cases {L : Lib C} {P : Pt F → Bool} {c : C} {ns : Str} {nss : NsMap}
    {attrs : List (Str × Val C F)} (ht : typed L P (.obj c ns nss attrs) = true) {a : Str}
    {Q : C → Bool} (h : hasItem L c a .xmlSubList Q = true) :
    ∃ l, attrOf a attrs = .list l ∧
      ∀ w ∈ l, ∃ d ns' nss' as, w = .obj d ns' nss' as ∧ Q d = true := by
  obtain ⟨it, hit, rfl, hg, hQ⟩ := hasItem_iff h
  have hk := (typed_obj.mp ht).1 it hit
  simp only [kindOk, hg] at hk
  cases hv : attrOf it.attr attrs with
  | list l =>
    rw [hv] at hk
    simp only [List.all_eq_true] at hk
    refine ⟨l, rfl, fun w hw => ?_⟩
    have := hk w hw
    cases w <;> simp only [isInst, decide_eq_true_eq, Bool.false_eq_true] at this
    rename_i d ns' nss' as
    exact ⟨d, ns', nss', as, rfl, hQ d this⟩
  | _ => rw [hv] at hk; simp at hk

variable [PyExt F]

/-- The coordinates of an instance of a class like `Coordinates`. -/
theorem coords_cases {L : Lib C} {P : Pt F → Bool} {d : C} {ns : Str} {nss : NsMap}
    {as : List (Str × Val C F)} (ht : typed L P (.obj d ns nss as) = true)
    (h : coordsCls L d = true) :
    ∃ l, coordsOf (.obj d ns nss as : Val C F) = .ok l ∧ l.all P = true := by
  simp only [coordsCls, Bool.and_eq_true] at h
  obtain ⟨it, hit, ha, hg⟩ := hasGet_iff h.1
  have hk := (typed_obj.mp ht).1 it hit
  simp only [kindOk, hg] at hk
  rw [ha] at hk
  unfold attrOf at hk
  simp only [coordsOf]
  cases hd : dget (s% "coords") as with
  | none => rw [hd] at hk; simp at hk
  | some v =>
    rw [hd] at hk
    simp only [Option.getD_some] at hk
    cases v <;> simp at hk
    rename_i l
    exact ⟨l, rfl, by simpa using hk⟩

/-! ## pygeoif: no further errors on what it returned -/

theorem mem_dedupeFrom {p : Pt F} {q : Pt F} {l : List (Pt F)} (h : q ∈ dedupeFrom p l) : q ∈ l := by
  induction l generalizing p with
  | nil => simp [dedupeFrom] at h
  | cons r l ih =>
    simp only [dedupeFrom] at h
    split at h
    · exact List.mem_cons_of_mem _ (ih h)
    · rcases List.mem_cons.mp h with h | h
      · simp [h]
      · exact List.mem_cons_of_mem _ (ih h)

theorem mem_dedupe {q : Pt F} {l : List (Pt F)} (h : q ∈ dedupe l) : q ∈ l := by
  cases l with
  | nil => simp [dedupe] at h
  | cons r l =>
    simp only [dedupe, List.mem_cons] at h ⊢
    rcases h with h | h
    · exact Or.inl h
    · exact Or.inr (mem_dedupeFrom h)

theorem setGeoms_ok {n : Nat} (hn : n = 2 ∨ n = 3) {l : List (Pt F)} (h : ∀ p ∈ l, p.length = n)
    {last : Option Nat} (hl : last = none ∨ last = some n) : ∃ r, setGeoms last l = .ok r := by
  induction l generalizing last with
  | nil => exact ⟨[], rfl⟩
  | cons p l ih =>
    have hp := h p (by simp)
    obtain ⟨r, hr⟩ := ih (fun q hq => h q (by simp [hq])) (last := some p.length) (Or.inr (by rw [hp]))
    refine ⟨if ptEmpty p then r else p :: r, ?_⟩
    rw [setGeoms, if_neg (by rcases hl with rfl | rfl <;> simp [hp])]
    rw [mkPoint, if_pos (by rw [hp]; exact hn)]
    simp only [hr]

theorem setGeoms_dims {last : Option Nat} {l r : List (Pt F)} (h : setGeoms last l = .ok r) :
    ∃ n, (n = 2 ∨ n = 3) ∧ (∀ p ∈ l, p.length = n) ∧ (∀ p ∈ r, p.length = n) := by
  induction l generalizing last r with
  | nil => simp [setGeoms] at h; subst h; exact ⟨2, Or.inl rfl, by simp, by simp⟩
  | cons p l ih =>
    simp only [setGeoms] at h
    split at h
    · cases h
    · split at h
      · cases h
      · rename_i q hq
        simp only [mkPoint] at hq
        split at hq
        · rename_i hdim
          simp at hq; subst hq
          split at h
          · cases h
          · rename_i r' hr'
            simp at h
            obtain ⟨n, hn, h1, h2⟩ := ih hr'
            refine ⟨p.length, hdim, ?_, ?_⟩
            · intro q hq
              rcases List.mem_cons.mp hq with rfl | hq
              · rfl
              · cases l with
                | nil => cases hq
                | cons x xs =>
                  simp only [setGeoms] at hr'
                  split at hr'
                  · cases hr'
                  · rename_i hx
                    simp at hx
                    rw [h1 q hq, hx, h1 x (by simp)]
            · have hr2 : ∀ q ∈ r', q.length = p.length := by
                intro q hq
                cases l with
                | nil => simp [setGeoms] at hr'; subst hr'; cases hq
                | cons x xs =>
                  rw [h2 q hq]
                  simp only [setGeoms] at hr'
                  split at hr'
                  · cases hr'
                  · rename_i hx
                    simp at hx
                    rw [hx, h1 x (by simp)]
              intro q hq
              rw [← h] at hq
              split at hq
              · exact hr2 q hq
              · rcases List.mem_cons.mp hq with rfl | hq
                · rfl
                · exact hr2 q hq
        · cases hq

theorem closeRing_mem {l : List (Pt F)} {p : Pt F} (h : p ∈ closeRing l) : p ∈ l := by
  cases l with
  | nil => simp [closeRing] at h
  | cons q r =>
    simp only [closeRing] at h
    split at h
    · exact h
    · split at h
      · exact h
      · rw [List.mem_append] at h
        rcases h with h | h
        · exact h
        · simp at h; simp [h]

/-- A ring that `LinearRing` made is accepted again by `LinearRing`. -/
theorem mkRing_again {l r : List (Pt F)} (h : mkRing l = .ok r) : ∃ r', mkRing r = .ok r' := by
  simp only [mkRing] at h
  split at h
  · cases h
  · rename_i l' hl'
    simp at h
    obtain ⟨n, hn, _, h2⟩ := setGeoms_dims hl'
    have : ∀ p ∈ dedupe r, p.length = n := by
      intro p hp
      have := mem_dedupe hp
      rw [← h] at this
      exact h2 p (closeRing_mem this)
    obtain ⟨r', hr'⟩ := setGeoms_ok hn this (Or.inl rfl)
    exact ⟨closeRing r', by simp only [mkRing, mkLine, hr']⟩

/-- Tuples of two or three components never raise `TypeError`. -/
theorem setGeoms_noType {l : List (Pt F)} (h : ∀ p ∈ l, p.length = 2 ∨ p.length = 3) {last : Option Nat} :
    setGeoms last l ≠ .error .type := by
  induction l generalizing last with
  | nil => simp [setGeoms]
  | cons p l ih =>
    intro he
    simp only [setGeoms] at he
    split at he
    · cases he
    · simp only [mkPoint, h p (by simp), if_true] at he
      split at he
      · rename_i e he'
        simp at he
        subst he
        exact ih (fun q hq => h q (by simp [hq])) he'
      · cases he

theorem mkLine_noType {l : List (Pt F)} (h : l.all Spec.dim23 = true) : mkLine l ≠ .error .type := by
  simp only [Spec.dim23, List.all_eq_true, decide_eq_true_eq] at h
  exact setGeoms_noType fun p hp => h p (mem_dedupe hp)

theorem mkRing_noType {l : List (Pt F)} (h : l.all Spec.dim23 = true) : mkRing l ≠ .error .type := by
  simp only [mkRing]
  intro he
  split at he
  · rename_i e he'
    simp at he
    subst he
    exact mkLine_noType h he'
  · cases he

/-! ## Truth values and geometries of typed objects -/

/-- What holds of the truth value and geometry of a typed value: `T` is whether
`TypeError` is possible. -/
structure InfoOk (T : Prop) (L : Lib C) (v : Val C F) : Prop where
  bool : ∀ x, truthy L v = .error x → x = .typeError ∧ T
  geom : ∀ c ns nss attrs, v = .obj c ns nss attrs → (L.info c).geom ≠ .none →
    ∀ x, geometry L v = .error x →
      (x = .typeError ∧ T) ∨ (x = .dimensionError ∧ flat (L.info c).geom = false)
  ring : ∀ c ns nss attrs, v = .obj c ns nss attrs →
    (L.info c).geom = .linearRing ∨ (L.info c).geom = .boundary →
    ∀ g, geometry L v = .ok (some g) → ∃ l r, g = .linearRing l ∧ mkRing l = .ok r
  line : ∀ c ns nss attrs, v = .obj c ns nss attrs → (L.info c).geom = .track →
    ∀ g, geometry L v = .ok (some g) → ∃ l, g = .lineString l

theorem allE_error {l : List (Except Err Bool)} {x : Err} (h : allE l = .error x) : .error x ∈ l := by
  induction l with
  | nil => cases h
  | cons b l ih =>
    cases b with
    | error e => simp [allE] at h; simp [h]
    | ok b => cases b with
      | false => simp [allE] at h
      | true => simp only [allE] at h; exact List.mem_cons_of_mem _ (ih h)

theorem anyE_error {l : List (Except Err Bool)} {x : Err} (h : anyE l = .error x) : .error x ∈ l := by
  induction l with
  | nil => cases h
  | cons b l ih =>
    cases b with
    | error e => simp [anyE] at h; simp [h]
    | ok b => cases b with
      | true => simp [anyE] at h
      | false => simp only [anyE] at h; exact List.mem_cons_of_mem _ (ih h)

theorem someGeoms_error {l : List (Info F)} {x : Err} (h : someGeoms l = .error x) :
    ∃ i ∈ l, i.geom = .error x := by
  induction l with
  | nil => cases h
  | cons i l ih =>
    simp only [someGeoms] at h
    split at h
    · rename_i e he; simp at h; subst h; exact ⟨i, by simp, he⟩
    · obtain ⟨j, hj, e⟩ := ih h; exact ⟨j, by simp [hj], e⟩
    · split at h
      · rename_i e he; simp at h; subst h
        obtain ⟨j, hj, e'⟩ := ih he; exact ⟨j, by simp [hj], e'⟩
      · cases h

theorem someGeoms_mem {l : List (Info F)} {gs : List (Geo F)} (h : someGeoms l = .ok gs) :
    ∀ g ∈ gs, ∃ i ∈ l, i.geom = .ok (some g) := by
  induction l generalizing gs with
  | nil => simp [someGeoms] at h; subst h; simp
  | cons i l ih =>
    simp only [someGeoms] at h
    split at h
    · cases h
    · intro g hg; obtain ⟨j, hj, e⟩ := ih h g hg; exact ⟨j, by simp [hj], e⟩
    · rename_i g' hg'
      split at h
      · cases h
      · rename_i gs' hgs'
        simp at h; subst h
        intro g hg
        rcases List.mem_cons.mp hg with rfl | hg
        · exact ⟨i, by simp, hg'⟩
        · obtain ⟨j, hj, e⟩ := ih hgs' g hg; exact ⟨j, by simp [hj], e⟩

theorem truthyGeoms_error {l : List (Info F)} {x : Err} (h : truthyGeoms l = .error x) :
    ∃ i ∈ l, i.geom = .error x := by
  simp only [truthyGeoms] at h
  split at h
  · rename_i e he; simp at h; subst h; exact someGeoms_error he
  · cases h

theorem truthyGeoms_mem {l : List (Info F)} {gs : List (Geo F)} (h : truthyGeoms l = .ok gs) :
    ∀ g ∈ gs, ∃ i ∈ l, i.geom = .ok (some g) := by
  simp only [truthyGeoms] at h
  split at h
  · cases h
  · rename_i gs' hgs'
    simp at h; subst h
    intro g hg
    exact someGeoms_mem hgs' g (List.mem_filter.mp hg).1

theorem ringsOf_ok {gs : List (Geo F)}
    (h : ∀ g ∈ gs, ∃ l r, g = .linearRing l ∧ mkRing l = .ok r) : ∃ rs, ringsOf gs = .ok rs := by
  induction gs with
  | nil => exact ⟨[], rfl⟩
  | cons g gs ih =>
    obtain ⟨l, r, rfl, hr⟩ := h g (by simp)
    obtain ⟨rs, hrs⟩ := ih fun g hg => h g (by simp [hg])
    exact ⟨r :: rs, by simp only [ringsOf, hr, liftGeo, hrs]⟩

theorem allLines_some {gs : List (Geo F)} (h : ∀ g ∈ gs, ∃ l, g = .lineString l) :
    ∃ ls, allLines gs = some ls := by
  induction gs with
  | nil => exact ⟨[], rfl⟩
  | cons g gs ih =>
    obtain ⟨l, rfl⟩ := h g (by simp)
    obtain ⟨ls, hls⟩ := ih fun g hg => h g (by simp [hg])
    exact ⟨l :: ls, by simp [allLines, hls]⟩

theorem numOf_ok {v : Val C F} (h : v = .none ∨ (∃ f, v = .float f) ∨ ∃ i, v = .int i) :
    ∃ o, numOf v = .ok o := by
  rcases h with rfl | ⟨f, rfl⟩ | ⟨i, rfl⟩ <;> exact ⟨_, rfl⟩

theorem float_cases {L : Lib C} {P : Pt F → Bool} {c : C} {ns : Str} {nss : NsMap}
    {attrs : List (Str × Val C F)} (ht : typed L P (.obj c ns nss attrs) = true) {a : Str}
    (h : hasGet L c a .subFloat = true) : ∃ o, numOf (attrOf a attrs) = .ok o := by
  obtain ⟨it, hit, rfl, hg⟩ := hasGet_iff h
  have hk := (typed_obj.mp ht).1 it hit
  simp only [kindOk, hg] at hk
  cases hv : attrOf it.attr attrs <;> rw [hv] at hk <;> simp at hk <;> exact ⟨_, rfl⟩

/-- Truth values and geometries of typed values raise `TypeError` only if `T`;
`geometry` of tracks can raise `DimensionError`. -/
theorem infoOk {L : Lib C} (hL : ∀ c, boolOk L c = true) {P : Pt F → Bool} {T : Prop}
    (hP : ∀ l : List (Pt F), l.all P = true → mkLine l = .error .type ∨ mkRing l = .error .type → T)
    (v : Val C F) : typed L P v = true → InfoOk T L v := by
  induction v using Val.objInd with
  | hother v hv =>
    intro _
    refine ⟨?_, ?_, ?_, ?_⟩
    · intro x hx
      cases v <;> first | exact absurd rfl (hv _ _ _ _) | (simp [truthy, info, Info.plain] at hx)
    all_goals intro c ns nss attrs h; exact absurd h (hv _ _ _ _)
  | hobj c ns nss attrs ih ihl =>
    intro ht
    have hb := hL c
    simp only [boolOk, Bool.and_eq_true, Bool.or_eq_true, decide_eq_true_eq] at hb
    obtain ⟨hg, hbg⟩ := hb
    -- sub-objects
    have hsub : ∀ a, InfoOk T L (attrOf a attrs) := by
      intro a
      by_cases hn : attrOf a attrs = .none
      · rw [hn]
        refine ⟨?_, ?_, ?_, ?_⟩
        · intro x hx; simp [truthy, info, Info.plain] at hx
        all_goals intro c ns nss attrs h; cases h
      · exact ih a _ (attrOf_mem rfl hn) (typed_attrOf ht a)
    have hmem : ∀ a l, attrOf a attrs = .list l → ∀ w ∈ l, InfoOk T L w := fun a l hl w hw =>
      ihl a l (attrOf_mem hl (by simp)) w hw (typed_member ht hl hw)
    -- the geometry
    have hgeom : (L.info c).geom ≠ .none → ∀ x, geomStep (L.info c).geom (infoAttrs L attrs) = .error x →
        (x = .typeError ∧ T) ∨ (x = .dimensionError ∧ flat (L.info c).geom = false) := by
      intro hne x hx
      have hbool : ∀ a x, (viewOf a (infoAttrs L attrs)).info.truthy = .error x → x = .typeError ∧ T := by
        intro a x h
        rw [viewOf_infoAttrs] at h
        exact (hsub a).bool x h
      have hcoords : hasItem L c (s% "kml_coordinates") .xmlSub (coordsCls L) = true →
          (viewOf (s% "kml_coordinates") (infoAttrs L attrs)).info.truthy = .ok true →
          ∃ l, coordsOf (viewOf (s% "kml_coordinates") (infoAttrs L attrs)).v = .ok l ∧
            l.all P = true := by
        intro h htr
        rw [viewOf_infoAttrs] at htr ⊢
        rcases sub_cases ht h with hn | ⟨d, ns', nss', as, hv, hd⟩
        · rw [hn] at htr; simp [info, Info.plain] at htr
        · have := typed_attrOf ht (s% "kml_coordinates")
          rw [hv] at this ⊢
          exact coords_cases this hd
      have hgeo1 : ∀ a Q, hasItem L c a .xmlSub Q = true → (∀ d, Q d = true → (L.info d).geom ≠ .none) →
          (viewOf a (infoAttrs L attrs)).v.notNone = true →
          ∀ x, (viewOf a (infoAttrs L attrs)).info.geom = .error x →
          (x = .typeError ∧ T) ∨ ∃ d, Q d = true ∧ x = .dimensionError ∧ flat (L.info d).geom = false := by
        intro a Q h hQ hnn x hx
        rw [viewOf_infoAttrs] at hx hnn
        rcases sub_cases ht h with hn | ⟨d, ns', nss', as, hv, hd⟩
        · rw [hn] at hnn; simp [Val.notNone] at hnn
        · rcases (hsub a).geom d ns' nss' as hv (hQ d hd) x hx with h | h
          · exact Or.inl h
          · exact Or.inr ⟨d, hd, h⟩
      have htn : ∀ a, (viewOf a (infoAttrs L attrs)).info.truthy = .ok true →
          (viewOf a (infoAttrs L attrs)).v.notNone = true := by
        intro a h
        rw [viewOf_infoAttrs] at h ⊢
        cases hv : attrOf a attrs <;> rw [hv] at h <;> first | rfl | simp [info, Info.plain] at h
      have hgeoL : ∀ a Q, hasItem L c a .xmlSubList Q = true → (∀ d, Q d = true → (L.info d).geom ≠ .none) →
          ∀ i ∈ (viewOf a (infoAttrs L attrs)).elems, ∀ x, i.geom = .error x →
          (x = .typeError ∧ T) ∨ ∃ d, Q d = true ∧ x = .dimensionError ∧ flat (L.info d).geom = false := by
        intro a Q h hQ i hi x hx
        rw [viewOf_infoAttrs] at hi
        obtain ⟨l, hl, hw⟩ := list_cases ht h
        rw [hl, infoElems_list, List.mem_map] at hi
        obtain ⟨w, hwl, rfl⟩ := hi
        obtain ⟨d, ns', nss', as, hv, hd⟩ := hw w hwl
        rcases (hmem a l hl w hwl).geom d ns' nss' as hv (hQ d hd) x hx with h | h
        · exact Or.inl h
        · exact Or.inr ⟨d, hd, h⟩
      cases hk : (L.info c).geom <;> rw [hk] at hx <;> simp only [geomOk, hk] at hg <;>
        simp only [geomStep] at hx
      case none => exact absurd hk hne
      case point =>
        split at hx
        · rename_i e he; simp at hx; subst hx; exact Or.inl (hbool _ _ he)
        · cases hx
        · rename_i htr
          obtain ⟨l, hl, _⟩ := hcoords hg htr
          rw [hl] at hx; cases hx
      case lineString =>
        split at hx
        · rename_i e he; simp at hx; subst hx; exact Or.inl (hbool _ _ he)
        · cases hx
        · rename_i htr
          obtain ⟨l, hl, hlP⟩ := hcoords hg htr
          rw [hl] at hx
          simp only at hx
          split at hx
          · rename_i e he
            simp at hx; subst hx
            cases hm : mkLine l with
            | ok r => rw [hm] at he; cases he
            | error e' =>
              rw [hm] at he
              cases e' with
              | dimension => cases he
              | type => simp [catchDim] at he; exact Or.inl ⟨he.symm, hP l hlP (Or.inl hm)⟩
          · cases hx
      case linearRing =>
        split at hx
        · rename_i e he; simp at hx; subst hx; exact Or.inl (hbool _ _ he)
        · cases hx
        · rename_i htr
          obtain ⟨l, hl, hlP⟩ := hcoords hg htr
          rw [hl] at hx
          simp only at hx
          split at hx
          · rename_i e he
            simp at hx; subst hx
            cases hm : mkRing l with
            | ok r => rw [hm] at he; cases he
            | error e' =>
              rw [hm] at he
              cases e' with
              | dimension => cases he
              | type => simp [catchDim] at he; exact Or.inl ⟨he.symm, hP l hlP (Or.inr hm)⟩
          · cases hx
      case boundary =>
        split at hx
        · rename_i e he; simp at hx; subst hx; exact Or.inl (hbool _ _ he)
        · cases hx
        · rename_i htr
          rcases hgeo1 _ _ hg (by simp only [decide_eq_true_eq]; intro d hd; rw [hd]; simp) (htn _ htr) x hx
            with h | ⟨d, hd, _, hf⟩
          · exact Or.inl h
          · simp only [decide_eq_true_eq] at hd; rw [hd] at hf; cases hf
      case polygon =>
        rw [Bool.and_eq_true] at hg
        split at hx
        · rename_i e he; simp at hx; subst hx; exact Or.inl (hbool _ _ he)
        · cases hx
        · rename_i htr
          have hinner : ∀ x, someGeoms (viewOf (s% "inner_boundaries") (infoAttrs L attrs)).elems = .error x →
              x = .typeError ∧ T := by
            intro x hx
            obtain ⟨i, hi, he⟩ := someGeoms_error hx
            rcases hgeoL _ _ hg.2 (by simp only [decide_eq_true_eq]; intro d hd; rw [hd]; simp) i hi x he
              with h | ⟨d, hd, _, hf⟩
            · exact h
            · simp only [decide_eq_true_eq] at hd; rw [hd] at hf; cases hf
          have hinnerOk : ∀ gs, someGeoms (viewOf (s% "inner_boundaries") (infoAttrs L attrs)).elems = .ok gs →
              ∃ rs, ringsOf gs = .ok rs := by
            intro gs hgs
            refine ringsOf_ok fun g hgm => ?_
            obtain ⟨i, hi, he⟩ := someGeoms_mem hgs g hgm
            rw [viewOf_infoAttrs] at hi
            obtain ⟨l, hl, hw⟩ := list_cases ht hg.2
            rw [hl, infoElems_list, List.mem_map] at hi
            obtain ⟨w, hwl, rfl⟩ := hi
            obtain ⟨d, ns', nss', as, hv, hd⟩ := hw w hwl
            simp only [decide_eq_true_eq] at hd
            exact (hmem _ l hl w hwl).ring d ns' nss' as hv (Or.inr hd) g he
          have hob := sub_cases ht hg.1
          have hobG := hgeo1 _ _ hg.1 (by
              simp only [Bool.and_eq_true, decide_eq_true_eq]; intro d hd; rw [hd.1]; simp) (htn _ htr)
          split at hx
          · rename_i e he; simp at hx; subst hx
            rcases hobG _ he with h | ⟨d, hd, _, hf⟩
            · exact Or.inl h
            · simp only [Bool.and_eq_true, decide_eq_true_eq] at hd; rw [hd.1] at hf; cases hf
          · rename_i l hl
            rw [viewOf_infoAttrs] at hl
            rcases hob with hn | ⟨d, ns', nss', as, hv, hd⟩
            · rw [hn] at hl; simp [info, Info.plain] at hl
            · simp only [Bool.and_eq_true, decide_eq_true_eq] at hd
              obtain ⟨l', r, hl', hr⟩ := (hsub _).ring d ns' nss' as hv (Or.inr hd.1) _ hl
              cases hl'
              rw [hr] at hx
              simp only [liftGeo] at hx
              split at hx
              · rename_i h; cases h
              · rename_i e he _
                simp at hx; subst hx
                exact Or.inl (hinner _ he)
              · rename_i gs hs hgs
                obtain ⟨rs, hrs⟩ := hinnerOk _ hgs
                rw [hrs] at hx; cases hx
          · rename_i o ho hne'
            exfalso
            rw [viewOf_infoAttrs] at htr hne'
            rcases hob with hn | ⟨d, ns', nss', as, hv, hd⟩
            · rw [hn] at htr; simp [info, Info.plain] at htr
            · simp only [Bool.and_eq_true, decide_eq_true_eq] at hd
              cases o with
              | none =>
                rw [hv] at hne' htr
                simp only [info_obj, infoStep, hd.2, boolStep] at hne' htr
                rw [hne'] at htr; simp at htr
              | some g =>
                obtain ⟨l', r, hl', hr⟩ := (hsub _).ring d ns' nss' as hv (Or.inr hd.1) _ hne'
                exact ho l' (by rw [hl'])
      case multi =>
        split at hx
        · rename_i e he; simp at hx; subst hx
          obtain ⟨i, hi, he⟩ := truthyGeoms_error he
          rcases hgeoL _ _ hg (by intro d hd hc; rw [hc] at hd; cases hd) i hi _ he with h | ⟨d, hd, _, hf⟩
          · exact Or.inl h
          · rw [hd] at hf; cases hf
        · cases hx
      case track =>
        simp only [decide_eq_true_eq] at hg
        have htk := (typed_obj.mp ht).2.1 hg
        rw [viewOf_infoAttrs] at hx
        simp only at hx
        simp only [trackOk, attr_eq] at htk
        split at hx
        · rename_i l hl
          rw [hl] at htk
          simp only [trackGeom] at hx
          cases hm : mkLine (l.map (·.coord)) with
          | ok r => rw [hm] at hx; cases hx
          | error e =>
            rw [hm] at hx
            cases e with
            | dimension => simp [liftGeo] at hx; exact Or.inr ⟨hx.symm, rfl⟩
            | type =>
              exfalso
              refine mkLine_noType (l := l.map (·.coord)) ?_ hm
              simpa [Spec.dim23] using htk
        · rename_i hno
          exfalso
          revert htk
          cases hv : attrOf (s% "track_items") attrs <;> simp
          exact (hno _ hv).elim
      case multiTrack =>
        split at hx
        · rename_i e he; simp at hx; subst hx
          obtain ⟨i, hi, he⟩ := truthyGeoms_error he
          rcases hgeoL _ _ hg (by simp only [decide_eq_true_eq]; intro d hd; rw [hd]; simp) i hi _ he
            with h | ⟨d, _, hd, _⟩
          · exact Or.inl h
          · exact Or.inr ⟨hd, rfl⟩
        · rename_i gs hgs
          have : ∃ ls, allLines gs = some ls := by
            refine allLines_some fun g hgm => ?_
            obtain ⟨i, hi, he⟩ := truthyGeoms_mem hgs g hgm
            rw [viewOf_infoAttrs] at hi
            obtain ⟨l, hl, hw⟩ := list_cases ht hg
            rw [hl, infoElems_list, List.mem_map] at hi
            obtain ⟨w, hwl, rfl⟩ := hi
            obtain ⟨d, ns', nss', as, hv, hd⟩ := hw w hwl
            simp only [decide_eq_true_eq] at hd
            exact (hmem _ l hl w hwl).line d ns' nss' as hv hd g he
          obtain ⟨ls, hls⟩ := this
          rw [hls] at hx; cases hx
      case location =>
        simp only [Bool.and_eq_true] at hg
        obtain ⟨o1, h1⟩ := float_cases ht hg.1.1
        obtain ⟨o2, h2⟩ := float_cases ht hg.1.2
        obtain ⟨o3, h3⟩ := float_cases ht hg.2
        simp only [viewOf_infoAttrs, h1, h2, h3] at hx
        cases o1 <;> cases o2 <;> cases o3 <;> cases hx
      case model =>
        split at hx
        · rename_i e he; simp at hx; subst hx; exact Or.inl (hbool _ _ he)
        · cases hx
        · rename_i htr
          rcases hgeo1 _ _ hg (by simp) (htn _ htr) x hx with h | ⟨d, hd, h, _⟩
          · exact Or.inl h
          · exact Or.inr ⟨h, rfl⟩
      case placemark =>
        split at hx
        · rename_i hnn
          rcases hgeo1 _ _ hg (by simp) hnn x hx with h | ⟨d, hd, h, _⟩
          · exact Or.inl h
          · exact Or.inr ⟨h, rfl⟩
        · cases hx
    refine ⟨?_, ?_, ?_, ?_⟩
    · -- the truth value
      intro x hx
      simp only [truthy, info_obj, infoStep] at hx
      cases hr : (L.info c).bool <;> rw [hr] at hx <;> simp only [boolStep] at hx
      case always => cases hx
      case allTruthy as =>
        have := allE_error hx
        rw [List.mem_map] at this
        obtain ⟨a, _, ha⟩ := this
        rw [viewOf_infoAttrs] at ha
        exact (hsub a).bool x ha
      case anyTruthy as =>
        have := anyE_error hx
        rw [List.mem_map] at this
        obtain ⟨a, _, ha⟩ := this
        rw [viewOf_infoAttrs] at ha
        exact (hsub a).bool x ha
      case allNotNone as => cases hx
      case anyNotNone as => cases hx
      case anyElem a =>
        have := anyE_error hx
        rw [List.mem_map] at this
        obtain ⟨i, hi, ha⟩ := this
        rw [viewOf_infoAttrs] at hi
        simp only at hi
        cases hv : attrOf a attrs <;> rw [hv] at hi <;> simp [infoElems, infoList_eq] at hi
        rename_i l
        obtain ⟨w, hw, rfl⟩ := hi
        exact (hmem a l hv w hw).bool x ha
      case geometry =>
        have hfl : flat (L.info c).geom = true := by
          rcases hbg with h | h
          · exact absurd hr h
          · exact h
        split at hx
        · rename_i e he
          simp at hx; subst hx
          rcases hgeom (by intro h; rw [h] at hfl; cases hfl) _ he with h | ⟨_, h⟩
          · exact h
          · rw [hfl] at h; cases h
        · cases hx
        · cases hx
    · intro c' ns' nss' attrs' h hne x hx
      cases h
      simp only [geometry, info_obj, infoStep] at hx
      exact hgeom hne x hx
    · intro c' ns' nss' attrs' h hk g hgm
      cases h
      simp only [geometry, info_obj, infoStep] at hgm
      rcases hk with hk | hk <;> rw [hk] at hgm <;> simp only [geomOk, hk] at hg <;>
        simp only [geomStep] at hgm
      · split at hgm
        · cases hgm
        · cases hgm
        · split at hgm
          · cases hgm
          · rename_i l hl
            split at hgm
            · cases hgm
            · rename_i o ho
              cases hm : mkRing l with
              | error e => rw [hm] at ho; cases e <;> simp [catchDim] at ho; subst ho; simp at hgm
              | ok r =>
                rw [hm] at ho
                simp [catchDim] at ho
                subst ho
                simp at hgm
                obtain ⟨r', hr'⟩ := mkRing_again hm
                exact ⟨r, r', hgm.symm, hr'⟩
      · split at hgm
        · cases hgm
        · cases hgm
        · rename_i htr
          rw [viewOf_infoAttrs] at hgm htr
          rcases sub_cases ht hg with hn | ⟨d, ns2, nss2, as2, hv, hd⟩
          · rw [hn] at htr; simp [info, Info.plain] at htr
          · simp only [decide_eq_true_eq] at hd
            exact (hsub _).ring d ns2 nss2 as2 hv (Or.inl hd) g hgm
    · intro c' ns' nss' attrs' h hk g hgm
      cases h
      simp only [geometry, info_obj, infoStep, hk, geomStep] at hgm
      split at hgm
      · simp only [trackGeom] at hgm
        split at hgm
        · cases hgm
        · simp at hgm; exact ⟨_, hgm.symm⟩
      · cases hgm

end Verif
