import Verif.Make
import Verif.Spec.Geometry
import Verif.Lemmas.Rounding
import Verif.Lemmas.Slots

/-!
# Lemmas about geometry arguments
-/

set_option linter.unusedSectionVars false
set_option linter.unusedSimpArgs false

namespace Verif

open Spec

variable {F : Type} [PyExt F]

/-! ## pygeoif on normal geometries -/

theorem ptEmpty_false {p : Pt F} : ptEmpty p = false ↔ ∀ x ∈ p, PyExt.isNaN x = false := by
  simp [ptEmpty]

theorem ptBeq_refl [LawfulExt F] {p : Pt F} (h : ptEmpty p = false) : ptBeq p p = true := by
  induction p with
  | nil => rfl
  | cons x p ih =>
    simp only [ptEmpty, List.any_cons, Bool.or_eq_false_iff] at h
    simp only [ptBeq, LawfulExt.beq_refl, h.1, Bool.not_false, Bool.true_and]
    exact ih h.2

theorem dedupeFrom_id {p : Pt F} {l : List (Pt F)}
    (h : ∀ a q r b, p :: l = a ++ q :: r :: b → ptBeq q r = false) : dedupeFrom p l = l := by
  induction l generalizing p with
  | nil => rfl
  | cons q l ih =>
    have hpq : ptBeq p q = false := h [] p q l rfl
    simp only [dedupeFrom, hpq, Bool.false_eq_true, if_false]
    rw [ih]
    intro a q' r b hab
    exact h (p :: a) q' r b (by rw [hab]; rfl)

theorem dedupe_id {l : List (Pt F)}
    (h : ∀ a q r b, l = a ++ q :: r :: b → ptBeq q r = false) : dedupe l = l := by
  cases l with
  | nil => rfl
  | cons p l => simp only [dedupe, dedupeFrom_id h]

theorem mkLine_normal {l : List (Pt F)} (h : NormalLine l) : mkLine l = .ok l := by
  have hd : dedupe l = l := dedupe_id h.distinct
  obtain ⟨n, hn, hl⟩ : ∃ n, (n = 2 ∨ n = 3) ∧ ∀ p ∈ l, p.length = n := by
    cases l with
    | nil => exact absurd rfl h.nonempty
    | cons p l => exact ⟨p.length, (h.points p (by simp)).1, fun q hq => h.dim q hq p (by simp)⟩
  obtain ⟨r, hr⟩ := setGeoms_ok hn hl (last := none) (Or.inl rfl)
  have hm := mkLine_eq l
  have hm' : mkLine l = .ok r := by rw [mkLine, hd]; exact hr
  rw [hm'] at hm
  split at hm
  · cases hm
  · rw [hm', hm, hd, List.filter_eq_self.mpr]
    intro p hp
    simp [ptEmpty_false.mpr (h.points p hp).2]

theorem mkRing_normal {l : List (Pt F)} (h : NormalRing l) : mkRing l = .ok l := by
  rw [mkRing, mkLine_normal h.toNormalLine]
  congr 1
  cases l with
  | nil => rfl
  | cons p r =>
    simp only [closeRing]
    cases hq : (p :: r).getLast? with
    | none => rfl
    | some q => simp only [h.closed p q rfl hq, if_true]

theorem mkPoint_normal {p : Pt F} (h : NormalPoint p) : mkPoint p = .ok p := by
  rw [mkPoint, if_pos h.1]

/-- A ring of pygeoif is closed. -/
theorem mkRing_closed [LawfulExt F] {l r : List (Pt F)} (h : mkRing l = .ok r) : Closed r := by
  simp only [mkRing] at h
  split at h
  · cases h
  · rename_i m hm
    cases h
    obtain ⟨n, _, hc⟩ := mkLine_clean hm
    intro p q hp hq
    cases m with
    | nil => simp [closeRing] at hp
    | cons x m =>
      have hx : ptBeq x x = true := ptBeq_refl (hc x (by simp)).2
      simp only [closeRing] at hp hq
      cases hl : (x :: m).getLast? with
      | none => simp at hl
      | some y =>
        simp only [hl] at hp hq
        by_cases hb : ptBeq x y = true
        · simp only [hb, if_true] at hp hq
          rw [hl] at hq
          simp at hp hq
          rw [← hp, ← hq]; exact hb
        · simp only [hb, Bool.false_eq_true, if_false] at hp hq
          rw [List.getLast?_append] at hq
          simp at hp hq
          rw [← hp, ← hq]; exact hx

/-! ## Errors of the constructors -/

/-- Slots whose normalisation can only fail on arguments of a wrong type. -/
def simpleNorm : Norm → Bool
  | .orNone => false
  | .listTruthy => false
  | _ => true

theorem normalise_simple {C : Type} [DecidableEq C] {L : Lib C} {n : Norm} {v : Val C F} {e : Err}
    (hn : simpleNorm n = true) (h : normalise L n v = .error e) : e = .illTyped := by
  cases n <;> simp [simpleNorm] at hn <;> cases v <;> simp [normalise] at h <;> exact h.symm

theorem fillSlots_simple {C : Type} [DecidableEq C] {L : Lib C} {kw : List (Str × Val C F)}
    {slots : List (Str × Norm)} {e : Err} (hs : slots.all (fun p => simpleNorm p.2) = true)
    (h : fillSlots L kw slots = .error e) : e = .illTyped := by
  induction slots with
  | nil => cases h
  | cons p ps ih =>
    obtain ⟨a, n⟩ := p
    simp only [List.all_cons, Bool.and_eq_true] at hs
    simp only [fillSlots] at h
    split at h
    · rename_i e' he
      cases h
      exact normalise_simple hs.1 he
    · split at h
      · rename_i e' he
        cases h
        exact ih hs.2 he
      · cases h

/-- The classes whose constructors are simple. -/
def simpleCls (c : Cls) : Bool :=
  decide ((fastkml.info c).special = .none) && (fastkml.info c).slots.all (fun p => simpleNorm p.2)

theorem init_error {c : Cls} (hc : simpleCls c = true) {ns : Option Str} {nss : NsMap}
    {kw : List (Str × Val Cls F)} {e : Err} (h : init fastkml c ns nss kw = .error e) :
    e = .illTyped ∨ e = .typeError := by
  simp only [simpleCls, Bool.and_eq_true, decide_eq_true_eq] at hc
  simp only [init, construct] at h
  split at h
  · cases h; exact Or.inr rfl
  · rw [hc.1] at h
    simp only [specialInit] at h
    split at h
    · rename_i e' he
      cases h
      exact Or.inl (fillSlots_simple hc.2 he)
    · cases h

/-- A class whose constructor takes further keyword arguments. -/
theorem init_ok {c : Cls} (hc : simpleCls c = true) (hk : (fastkml.info c).kwargs = true)
    {ns : Option Str} {nss : NsMap} {kw : List (Str × Val Cls F)}
    (h : ∀ p ∈ (fastkml.info c).slots, ∃ v, normalise fastkml p.2 (kwGet p.1 kw) = .ok v) :
    ∃ v, init fastkml c ns nss kw = .ok v := by
  simp only [simpleCls, Bool.and_eq_true, decide_eq_true_eq] at hc
  obtain ⟨sl, hsl⟩ : ∃ sl, fillSlots fastkml kw (fastkml.info c).slots = .ok sl := by
    clear hc hk
    revert h
    generalize (fastkml.info c).slots = slots
    intro h
    induction slots with
    | nil => exact ⟨[], rfl⟩
    | cons p ps ih =>
      obtain ⟨a, n⟩ := p
      obtain ⟨v, hv⟩ := h (a, n) (by simp)
      obtain ⟨sl, hsl⟩ := ih fun p hp => h p (by simp [hp])
      exact ⟨(a, v) :: sl, by simp only [fillSlots, hv, hsl]⟩
  simp only [init, construct, hc.1, hk, specialInit, hsl]
  simp

theorem init_slot {c : Cls} {ns : Option Str} {nss : NsMap} {kw : List (Str × Val Cls F)}
    {v : Val Cls F} (h : init fastkml c ns nss kw = .ok v)
    (hn : (specialArgs (fastkml.info c).special ++ (fastkml.info c).slots.map Prod.fst).Nodup)
    {a : Str} {n : Norm} (ha : (a, n) ∈ (fastkml.info c).slots) :
    ∃ ns' attrs w, v = .obj c ns' (mergeNs nss) attrs ∧
      normalise fastkml n (kwGet a kw) = .ok w ∧ attrOf a attrs = w := by
  obtain ⟨attrs, w, h1, h2, h3⟩ := construct_slot h hn ha
  exact ⟨_, attrs, w, h1, h2, by simp [attrOf, h3]⟩

/-! ## Dictionaries of keyword arguments -/

theorem kwGet_dset {a b : Str} {v : Val Cls F} {kw : List (Str × Val Cls F)} :
    kwGet a (dset b v kw) = if b = a then v else kwGet a kw := by
  simp only [kwGet, dget_dset]
  by_cases h : b = a
  · subst h; simp
  · simp [h, Ne.symm h]

theorem kwGet_ddel {a b : Str} {kw : List (Str × Val Cls F)} :
    kwGet a (ddel b kw) = if b = a then .none else kwGet a kw := by
  simp only [kwGet, ddel]
  induction kw with
  | nil => simp [dget]
  | cons p kw ih =>
    obtain ⟨k, v⟩ := p
    simp only [List.filter_cons]
    by_cases hk : k = b
    · subst hk
      simp only [ne_eq, not_true_eq_false, decide_false, Bool.false_eq_true, if_false, ih, dget]
      by_cases h : k = a
      · simp [h]
      · simp [h]
    · simp only [ne_eq, hk, not_false_eq_true, decide_true, if_true, dget]
      by_cases h : k = a
      · subst h
        simp [Ne.symm hk]
      · simp only [h, if_false]
        exact ih

/-! ## `create_kml_geometry` -/

/-- `None` or a string. -/
def textOrNone : Val Cls F → Bool
  | .none => true
  | .str _ => true
  | _ => false

theorem normalise_orEmpty {v : Val Cls F} (h : textOrNone v = true) :
    ∃ w, normalise fastkml .orEmpty v = .ok w := by
  cases v <;> simp [textOrNone] at h <;> exact ⟨_, rfl⟩

/-- The slots of a geometry class: unchecked, identifiers, or lists. -/
def geoCls (c : Cls) : Bool :=
  simpleCls c && (fastkml.info c).kwargs && (fastkml.info c).slots.all fun p =>
    decide (p.2 = .raw) || decide (p = (s% "id", .orEmpty)) || decide (p = (s% "target_id", .orEmpty)) ||
      decide (p.2 = .listOr)

theorem init_geo {c : Cls} (hc : geoCls c = true) {ns : Option Str} {nss : NsMap}
    {kw : List (Str × Val Cls F)} (hi : textOrNone (kwGet (s% "id") kw) = true)
    (ht : textOrNone (kwGet (s% "target_id") kw) = true)
    (hl : ∀ a, (a, Norm.listOr) ∈ (fastkml.info c).slots →
      kwGet a kw = .none ∨ ∃ l, kwGet a kw = .list l) :
    ∃ v, init fastkml c ns nss kw = .ok v := by
  simp only [geoCls, Bool.and_eq_true, List.all_eq_true, Bool.or_eq_true, decide_eq_true_eq] at hc
  refine init_ok hc.1.1 hc.1.2 fun p hp => ?_
  rcases hc.2 p hp with ((h | h) | h) | h
  · rw [h]; exact ⟨_, rfl⟩
  · rw [h]; exact normalise_orEmpty hi
  · rw [h]; exact normalise_orEmpty ht
  · obtain ⟨a, n⟩ := p
    simp only at h
    subst h
    rcases hl a hp with h | ⟨l, h⟩ <;> rw [h] <;> exact ⟨_, rfl⟩

theorem newCoordinates_ok {g : Geo F} {l : List (Pt F)} (h : g.coords = .ok l) :
    newCoordinates g = .ok (.obj .Coordinates (s% "{http://www.opengis.net/kml/2.2}") (mergeNs [])
      [(s% "coords", .coords l)]) := by
  simp only [newCoordinates, h]; rfl

theorem truthy_coordinates (ns : Str) (nss : NsMap) (l : List (Pt F)) :
    (info fastkml (.obj .Coordinates ns nss [(s% "coords", .coords l)])).truthy = .ok (!l.isEmpty) := by
  cases l <;> rfl

theorem coordsOf_coordinates (ns : Str) (nss : NsMap) (l : List (Pt F)) :
    coordsOf (.obj .Coordinates ns nss [(s% "coords", .coords l)] : Val Cls F) = .ok l := rfl

/-- The keyword arguments of a call to a geometry constructor have their documented types. -/
def GeoArgs.ok (a : GeoArgs F) : Prop := textOrNone a.id = true ∧ textOrNone a.targetId = true

theorem GeoArgs.members_ok (a : GeoArgs F) : a.members.ok := ⟨rfl, rfl⟩

/-- The constructors of `Point`, `LineString` and `LinearRing`. -/
theorem initCoords_ok {c : Cls} (hc : c = .Point ∨ c = .LineString ∨ c = .LinearRing)
    {ns : Option Str} {nss : NsMap} {g : Geo F} {l : List (Pt F)} (hg : g.nonEmpty = true)
    (hl : g.coords = .ok l) {kw : List (Str × Val Cls F)}
    (hk : kwGet (s% "kml_coordinates") kw = .none)
    (hi : textOrNone (kwGet (s% "id") kw) = true) (ht : textOrNone (kwGet (s% "target_id") kw) = true) :
    ∃ v ns' nss' attrs n m, initCoords c ns nss (some g) kw = .ok v ∧ v = .obj c ns' nss' attrs ∧
      attrOf (s% "kml_coordinates") attrs = .obj .Coordinates n m [(s% "coords", .coords l)] := by
  have key : ∀ kw : List (Str × Val Cls F), kwGet (s% "kml_coordinates") kw = .none →
      textOrNone (kwGet (s% "id") kw) = true → textOrNone (kwGet (s% "target_id") kw) = true →
      ∃ v ns' nss' attrs n m, (if (kwGet (s% "kml_coordinates") kw).notNone then .error .geometryError
      else if g.nonEmpty then match newCoordinates g with
      | .error e => .error e
      | .ok k => init fastkml c ns nss (dset (s% "kml_coordinates") k kw)
    else init fastkml c ns nss kw) = .ok v ∧ v = .obj c ns' nss' attrs ∧
      attrOf (s% "kml_coordinates") attrs = .obj .Coordinates n m [(s% "coords", .coords l)] := by
    intro kw hk hi ht
    rw [hk, hg, newCoordinates_ok hl]
    simp only [Val.notNone, Bool.false_eq_true, if_false, if_true]
    obtain ⟨v, hv⟩ : ∃ v, init fastkml c ns nss (dset (s% "kml_coordinates")
        (.obj .Coordinates (s% "{http://www.opengis.net/kml/2.2}") (mergeNs [])
          [(s% "coords", .coords l)]) kw) = .ok v := by
      refine init_geo (by rcases hc with rfl | rfl | rfl <;> decide) ?_ ?_ ?_
      · rw [kwGet_dset, if_neg (by decide)]; exact hi
      · rw [kwGet_dset, if_neg (by decide)]; exact ht
      · intro a ha
        exfalso
        revert ha
        rcases hc with rfl | rfl | rfl <;> simp [fastkml, clsInfo, info_Point, info_LineString, info_LinearRing]
    obtain ⟨ns', attrs, w, h1, h2, h3⟩ := init_slot hv (slots_nodup c) (a := s% "kml_coordinates") (n := .raw)
      (by rcases hc with rfl | rfl | rfl <;> decide)
    rw [kwGet_dset, if_pos rfl] at h2
    simp only [normalise, Except.ok.injEq] at h2
    exact ⟨v, ns', _, attrs, _, _, hv, h1, h3.trans h2.symm⟩
  simp only [initCoords]
  by_cases hp : c = .Point
  · simp only [hp, if_true]
    subst hp
    exact key _ (by rw [kwGet_ddel, hk]; simp) (by rw [kwGet_ddel, if_neg (by decide)]; exact hi)
      (by rw [kwGet_ddel, if_neg (by decide)]; exact ht)
  · simp only [hp, if_false]
    exact key _ hk hi ht

theorem geometry_obj (c : Cls) (ns : Str) (nss : NsMap) (attrs : List (Str × Val Cls F)) :
    geometry fastkml (.obj c ns nss attrs) = geomStep (fastkml.info c).geom (infoAttrs fastkml attrs) := by
  simp only [geometry, info, infoStep]

theorem truthy_geometry {c : Cls} (hb : (fastkml.info c).bool = .geometry) {ns : Str} {nss : NsMap}
    {attrs : List (Str × Val Cls F)} {g : Geo F}
    (h : geometry fastkml (.obj c ns nss attrs) = .ok (some g)) :
    truthy fastkml (.obj c ns nss attrs) = .ok g.nonEmpty := by
  rw [geometry_obj] at h
  simp only [truthy, info, infoStep, hb, boolStep, h]

theorem geometry_point {ns : Str} {nss : NsMap} {attrs : List (Str × Val Cls F)} {n : Str} {m : NsMap}
    {p : Pt F} (hp : NormalPoint p)
    (h : attrOf (s% "kml_coordinates") attrs = .obj .Coordinates n m [(s% "coords", .coords [p])]) :
    geometry fastkml (.obj .Point ns nss attrs) = .ok (some (.point p)) := by
  rw [geometry_obj]
  show geomStep .point _ = _
  simp only [geomStep, viewOf_infoAttrs, h, truthy_coordinates, coordsOf_coordinates, pointGeom,
    mkPoint_normal hp, List.isEmpty_cons, Bool.not_false]

theorem geometry_line {ns : Str} {nss : NsMap} {attrs : List (Str × Val Cls F)} {n : Str} {m : NsMap}
    {l : List (Pt F)} (hl : NormalLine l)
    (h : attrOf (s% "kml_coordinates") attrs = .obj .Coordinates n m [(s% "coords", .coords l)]) :
    geometry fastkml (.obj .LineString ns nss attrs) = .ok (some (.lineString l)) := by
  have hne : l.isEmpty = false := by simpa using hl.nonempty
  rw [geometry_obj]
  show geomStep .lineString _ = _
  simp only [geomStep, viewOf_infoAttrs, h, truthy_coordinates, coordsOf_coordinates, hne,
    Bool.not_false, mkLine_normal hl, catchDim, Option.map_some]

theorem geometry_ring {ns : Str} {nss : NsMap} {attrs : List (Str × Val Cls F)} {n : Str} {m : NsMap}
    {l : List (Pt F)} (hl : NormalRing l)
    (h : attrOf (s% "kml_coordinates") attrs = .obj .Coordinates n m [(s% "coords", .coords l)]) :
    geometry fastkml (.obj .LinearRing ns nss attrs) = .ok (some (.linearRing l)) := by
  have hne : l.isEmpty = false := by simpa using hl.nonempty
  rw [geometry_obj]
  show geomStep .linearRing _ = _
  simp only [geomStep, viewOf_infoAttrs, h, truthy_coordinates, coordsOf_coordinates, hne,
    Bool.not_false, mkRing_normal hl, catchDim, Option.map_some]

/-- Boundaries made from a ring. -/
theorem initBoundary_ok {c : Cls} (hc : c = .OuterBoundaryIs ∨ c = .InnerBoundaryIs)
    {l : List (Pt F)} (hl : NormalRing l) {ns : Option Str} {nss : NsMap} :
    ∃ v, initBoundary c ns nss (some (.linearRing l)) [] = .ok v ∧
      geometry fastkml v = .ok (some (.linearRing l)) ∧ truthy fastkml v = .ok true := by
  have hne : (Geo.linearRing l).nonEmpty = true := by simpa [Geo.nonEmpty] using hl.nonempty
  obtain ⟨k, kns, knss, kattrs, n, m, hk, rfl, hka⟩ := initCoords_ok (c := .LinearRing) (by simp)
    (ns := ns) (nss := nss) hne (l := l) rfl (kw := []) rfl rfl rfl
  have hg := geometry_ring (ns := kns) (nss := knss) hl hka
  have htr := truthy_geometry rfl hg
  obtain ⟨v, hv⟩ : ∃ v, init fastkml c ns nss [(s% "kml_geometry", .obj .LinearRing kns knss kattrs)] = .ok v := by
    refine init_geo (by rcases hc with rfl | rfl <;> decide) rfl rfl ?_
    intro a ha
    exfalso
    revert ha
    rcases hc with rfl | rfl <;> simp [fastkml, clsInfo, info_OuterBoundaryIs, info_InnerBoundaryIs]
  obtain ⟨ns', attrs, w, h1, h2, h3⟩ := init_slot hv (slots_nodup c) (a := s% "kml_geometry") (n := .raw)
    (by rcases hc with rfl | rfl <;> decide)
  simp only [kwGet, dget, if_true, Option.getD_some, normalise, Except.ok.injEq] at h2
  rw [← h2] at h3
  have hgv : geometry fastkml v = .ok (some (.linearRing l)) := by
    rw [h1, geometry_obj, show (fastkml.info c).geom = .boundary by rcases hc with rfl | rfl <;> rfl]
    simp only [geometry] at hg
    simp only [truthy] at htr
    simp only [geomStep, viewOf_infoAttrs, h3, htr, hne, hg]
  refine ⟨v, ?_, hgv, ?_⟩
  · simp only [initBoundary, kwGet, dget, Option.getD_none, Val.notNone, Bool.false_eq_true, if_false,
      hne, if_true, hk, dset, hv]
  · rw [h1] at hgv ⊢
    rw [truthy_geometry (by rcases hc with rfl | rfl <;> rfl) hgv, hne]

theorem initBoundaries_ok {hs : List (List (Pt F))} (h : ∀ l ∈ hs, NormalRing l) :
    ∃ vs, seqE (hs.map fun l => initBoundary .InnerBoundaryIs none [] (some (.linearRing l)) []) = .ok vs ∧
      vs.map (geometry fastkml) = hs.map fun l => .ok (some (.linearRing l)) := by
  induction hs with
  | nil => exact ⟨[], rfl, rfl⟩
  | cons l hs ih =>
    obtain ⟨v, hv, hg, _⟩ := initBoundary_ok (c := .InnerBoundaryIs) (Or.inr rfl) (h l (by simp))
      (ns := none) (nss := [])
    obtain ⟨vs, hvs, hgs⟩ := ih fun x hx => h x (by simp [hx])
    exact ⟨v :: vs, by simp only [List.map_cons, seqE, hv, hvs], by simp only [List.map_cons, hg, hgs]⟩

theorem someGeoms_all {is : List (Info F)} {gs : List (Geo F)}
    (h : is.map Info.geom = gs.map fun g => .ok (some g)) : someGeoms is = .ok gs := by
  induction gs generalizing is with
  | nil => rw [List.map_nil, List.map_eq_nil_iff] at h; subst h; rfl
  | cons g gs ih =>
    cases is with
    | nil => simp at h
    | cons i is =>
      simp only [List.map_cons, List.cons.injEq] at h
      simp only [someGeoms, h.1, ih h.2]

theorem ringsOf_normal {hs : List (List (Pt F))} (h : ∀ l ∈ hs, NormalRing l) :
    ringsOf (hs.map .linearRing) = .ok hs := by
  induction hs with
  | nil => rfl
  | cons l hs ih =>
    simp only [List.map_cons, ringsOf, mkRing_normal (h l (by simp)), liftGeo,
      ih fun x hx => h x (by simp [hx])]

theorem initPolygon_ok {s : List (Pt F)} {hs : List (List (Pt F))} (h : NormalRing s)
    (hh : ∀ l ∈ hs, NormalRing l) {ns : Option Str} {nss : NsMap} {kw : List (Str × Val Cls F)}
    (hk : kwGet (s% "outer_boundary") kw = .none)
    (hi : textOrNone (kwGet (s% "id") kw) = true) (ht : textOrNone (kwGet (s% "target_id") kw) = true) :
    ∃ v, initPolygon ns nss (some (.polygon s hs)) kw = .ok v ∧
      geometry fastkml v = .ok (some (.polygon s hs)) := by
  obtain ⟨o, ho, hog, hot⟩ := initBoundary_ok (c := .OuterBoundaryIs) (Or.inl rfl) h (ns := none) (nss := [])
  obtain ⟨is, his, hig⟩ := initBoundaries_ok hh
  obtain ⟨v, hv⟩ : ∃ v, init fastkml .Polygon ns nss
      (dset (s% "inner_boundaries") (.list is) (dset (s% "outer_boundary") o kw)) = .ok v := by
    refine init_geo (by decide) ?_ ?_ ?_
    · rw [kwGet_dset, if_neg (by decide), kwGet_dset, if_neg (by decide)]; exact hi
    · rw [kwGet_dset, if_neg (by decide), kwGet_dset, if_neg (by decide)]; exact ht
    · intro a ha
      have : a = s% "inner_boundaries" := by
        simpa [fastkml, clsInfo, info_Polygon] using ha
      subst this
      exact Or.inr ⟨is, by rw [kwGet_dset, if_pos rfl]⟩
  obtain ⟨ns', attrs, w, h1, h2, h3⟩ := init_slot hv (slots_nodup _) (a := s% "outer_boundary") (n := .raw)
    (by decide)
  obtain ⟨ns'', attrs', w', h1', h2', h3'⟩ := init_slot hv (slots_nodup _) (a := s% "inner_boundaries") (n := .listOr)
    (by decide)
  rw [h1] at h1'
  cases h1'
  rw [kwGet_dset, if_neg (by decide), kwGet_dset, if_pos rfl] at h2
  rw [kwGet_dset, if_pos rfl] at h2'
  simp only [normalise, Except.ok.injEq] at h2 h2'
  rw [← h2] at h3
  rw [← h2'] at h3'
  refine ⟨v, ?_, ?_⟩
  · simp only [initPolygon, hk, Val.notNone, Bool.false_eq_true, if_false, ho, his, hv]
  · rw [h1, geometry_obj]
    show geomStep .polygon _ = _
    simp only [geometry] at hog hig
    simp only [truthy] at hot
    have hgs : someGeoms (is.map (info fastkml)) = .ok (hs.map .linearRing) := by
      apply someGeoms_all
      simp only [List.map_map]
      rw [show Info.geom ∘ info (F := F) fastkml = geometry fastkml from rfl, hig]
      rfl
    simp only [geomStep, viewOf_infoAttrs, h3, h3', hot, hog, mkRing_normal h, liftGeo, infoElems_list,
      hgs, ringsOf_normal hh]

/-! ## Multi-part geometries -/

theorem allPoints_eq (l : List (Geo F)) :
    allPoints l = if l.all (fun g => (point? g).isSome) then some (l.filterMap point?) else none := by
  induction l with
  | nil => rfl
  | cons g l ih =>
    cases g <;> simp [allPoints, point?, ih]

theorem allLines_eq (l : List (Geo F)) :
    allLines l = if l.all (fun g => (line? g).isSome) then some (l.filterMap line?) else none := by
  induction l with
  | nil => rfl
  | cons g l ih =>
    cases g <;> simp [allLines, line?, ih]

theorem allPolygons_eq (l : List (Geo F)) :
    allPolygons l = if l.all (fun g => (polygon? g).isSome) then some (l.filterMap polygon?) else none := by
  induction l with
  | nil => rfl
  | cons g l ih =>
    cases g <;> simp [allPolygons, polygon?, ih]

theorem createMulti_gather {l : List (Geo F)} (hne : l ≠ []) (h : ∀ g ∈ l, g.nonEmpty = true) :
    createMulti l = some (gather l) := by
  have hf : l.filter Geo.nonEmpty = l := List.filter_eq_self.mpr h
  cases l with
  | nil => exact absurd rfl hne
  | cons g l =>
    simp only [createMulti, allPoints_eq, allLines_eq, allPolygons_eq, gather]
    by_cases h1 : ((g :: l).all fun g => (point? g).isSome) = true
    · simp only [h1, if_true]
    · by_cases h2 : ((g :: l).all fun g => (line? g).isSome) = true
      · simp only [h1, h2, if_true, if_false]; rfl
      · by_cases h3 : ((g :: l).all fun g => (polygon? g).isSome) = true
        · simp only [h1, h2, h3, if_true, if_false]; rfl
        · simp only [h1, h2, h3, if_false, hf]; rfl

theorem gather_nonEmpty {l : List (Geo F)} (hne : l ≠ []) (h : ∀ g ∈ l, g.nonEmpty = true) :
    (gather l).nonEmpty = true := by
  cases l with
  | nil => exact absurd rfl hne
  | cons g l =>
    have hg := h g (by simp)
    simp only [gather]
    split
    · rename_i h1
      cases g <;> simp [point?] at h1
      simp only [Geo.nonEmpty] at hg
      simp [Geo.nonEmpty, point?, hg]
    · split
      · rename_i h1
        cases g <;> simp [line?] at h1
        simp only [Geo.nonEmpty] at hg
        simp at hg
        simp [Geo.nonEmpty, line?, hg]
      · split
        · rename_i h1
          cases g <;> simp [polygon?] at h1
          simp only [Geo.nonEmpty] at hg
          simp at hg
          simp [Geo.nonEmpty, polygon?, hg]
        · rfl

theorem gather_points {l : List (Pt F)} : gather (l.map .point) = .multiPoint l := by
  simp only [gather, List.all_map, List.filterMap_map]
  have : (Spec.point? ∘ Geo.point : Pt F → _) = some := rfl
  rw [if_pos (by simp [point?]), this, List.filterMap_some]

theorem gather_lines {l : List (List (Pt F))} (hne : l ≠ []) :
    gather (l.map .lineString) = .multiLineString l := by
  simp only [gather, List.all_map, List.filterMap_map]
  have : (Spec.line? ∘ Geo.lineString : List (Pt F) → _) = some := rfl
  rw [if_neg, if_pos (by simp [line?]), this, List.filterMap_some]
  cases l with
  | nil => exact absurd rfl hne
  | cons => simp [point?]

theorem gather_polygons {l : List (List (Pt F) × List (List (Pt F)))} (hne : l ≠ []) :
    gather (l.map fun p => .polygon p.1 p.2) = .multiPolygon l := by
  simp only [gather, List.all_map, List.filterMap_map]
  have : (Spec.polygon? ∘ (fun p => .polygon p.1 p.2) : List (Pt F) × List (List (Pt F)) → _) = some := rfl
  rw [if_neg, if_neg, if_pos (by simp [polygon?]), this, List.filterMap_some]
  all_goals
  cases l with
  | nil => exact absurd rfl hne
  | cons => simp [point?, line?]

/-- A `MultiGeometry` made from members that have geometries. -/
theorem initMulti_ok {ms : List (Except Err (Val Cls F))} {vs : List (Val Cls F)} {gs : List (Geo F)}
    (hms : seqE ms = .ok vs) (hg : vs.map (geometry fastkml) = gs.map fun g => .ok (some g))
    (hne : gs ≠ []) (h : ∀ g ∈ gs, g.nonEmpty = true) {ns : Option Str} {nss : NsMap}
    {kw : List (Str × Val Cls F)} (hk : kwGet (s% "kml_geometries") kw = .none)
    (hi : textOrNone (kwGet (s% "id") kw) = true) (ht : textOrNone (kwGet (s% "target_id") kw) = true) :
    ∃ v, initMulti ns nss (some ms) kw = .ok v ∧ geometry fastkml v = .ok (some (gather gs)) := by
  simp only [initMulti]
  generalize hkw : ddel (s% "extrude") (ddel (s% "tessellate") (ddel (s% "altitude_mode") kw)) = kw'
  have hk' : kwGet (s% "kml_geometries") kw' = .none := by
    rw [← hkw]; simp only [kwGet_ddel]; rw [if_neg (by decide), if_neg (by decide), if_neg (by decide)]; exact hk
  have hi' : textOrNone (kwGet (s% "id") kw') = true := by
    rw [← hkw]; simp only [kwGet_ddel]; rw [if_neg (by decide), if_neg (by decide), if_neg (by decide)]; exact hi
  have ht' : textOrNone (kwGet (s% "target_id") kw') = true := by
    rw [← hkw]; simp only [kwGet_ddel]; rw [if_neg (by decide), if_neg (by decide), if_neg (by decide)]; exact ht
  obtain ⟨v, hv⟩ : ∃ v, init fastkml .MultiGeometry ns nss (dset (s% "kml_geometries") (.list vs) kw') = .ok v := by
    refine init_geo (by decide) ?_ ?_ ?_
    · rw [kwGet_dset, if_neg (by decide)]; exact hi'
    · rw [kwGet_dset, if_neg (by decide)]; exact ht'
    · intro a ha
      have : a = s% "kml_geometries" := by
        simpa [fastkml, clsInfo, info_MultiGeometry] using ha
      subst this
      exact Or.inr ⟨vs, by rw [kwGet_dset, if_pos rfl]⟩
  obtain ⟨ns', attrs, w, h1, h2, h3⟩ := init_slot hv (slots_nodup _) (a := s% "kml_geometries") (n := .listOr)
    (by decide)
  rw [kwGet_dset, if_pos rfl] at h2
  simp only [normalise, Except.ok.injEq] at h2
  rw [← h2] at h3
  refine ⟨v, ?_, ?_⟩
  · simp only [hk', Val.notNone, Bool.false_eq_true, if_false, hms, hv]
  · rw [h1, geometry_obj]
    show geomStep .multi _ = _
    have hgs : someGeoms (vs.map (info fastkml)) = .ok gs := by
      apply someGeoms_all
      simp only [List.map_map]
      rw [show Info.geom ∘ info (F := F) fastkml = geometry fastkml from rfl, hg]
    simp only [geomStep, viewOf_infoAttrs, h3, infoElems_list, truthyGeoms, hgs,
      List.filter_eq_self.mpr h, createMulti_gather hne h]

/-! ## Normal geometries -/

theorem kw_id (a : GeoArgs F) : kwGet (s% "id") a.kw = a.id := rfl

theorem kw_target (a : GeoArgs F) : kwGet (s% "target_id") a.kw = a.targetId := rfl

theorem Normal.nonEmpty {g : Geo F} (h : Normal g) : g.nonEmpty = true := by
  cases g with
  | point p => simpa [Geo.nonEmpty] using ptEmpty_false.mpr h.2
  | lineString l => simpa [Geo.nonEmpty] using NormalLine.nonempty h
  | linearRing l => simpa [Geo.nonEmpty] using (NormalRing.toNormalLine h).nonempty
  | polygon s hs => simpa [Geo.nonEmpty] using (NormalRing.toNormalLine h.1).nonempty
  | multiPoint l =>
    obtain ⟨hne, h⟩ := h
    cases l with
    | nil => exact absurd rfl hne
    | cons p l => simp [Geo.nonEmpty, ptEmpty_false.mpr (h p (by simp)).2]
  | multiLineString l =>
    obtain ⟨hne, h⟩ := h
    cases l with
    | nil => exact absurd rfl hne
    | cons p l => simp [Geo.nonEmpty, (h p (by simp)).nonempty]
  | multiPolygon l =>
    obtain ⟨hne, h⟩ := h
    cases l with
    | nil => exact absurd rfl hne
    | cons p l => simp [Geo.nonEmpty, (h p (by simp)).1.nonempty]
  | collection l =>
    obtain ⟨hne, _⟩ := h
    simpa [Geo.nonEmpty] using hne

theorem create_point {a : GeoArgs F} (ha : a.ok) {p : Pt F} (h : NormalPoint p)
    (ms : List (Except Err (Val Cls F))) :
    ∃ v, createStep a (.point p) ms = .ok v ∧ geometry fastkml v = .ok (some (.point p)) := by
  have hne : (Geo.point p).nonEmpty = true := Normal.nonEmpty (g := .point p) h
  obtain ⟨v, ns', nss', attrs, n, m, hv, rfl, hat⟩ := initCoords_ok (c := .Point) (by simp) (ns := a.ns) (nss := a.nss)
    hne (l := [p]) rfl (kw := a.kw) rfl ha.1 ha.2
  refine ⟨.obj _ ns' nss' attrs, ?_, geometry_point h hat⟩
  simp only [createStep, shape, hne, if_true]
  exact hv

theorem create_line {a : GeoArgs F} (ha : a.ok) {l : List (Pt F)} (h : NormalLine l)
    (ms : List (Except Err (Val Cls F))) :
    ∃ v, createStep a (.lineString l) ms = .ok v ∧ geometry fastkml v = .ok (some (.lineString l)) := by
  have hne : (Geo.lineString l).nonEmpty = true := Normal.nonEmpty (g := .lineString l) h
  obtain ⟨v, ns', nss', attrs, n, m, hv, rfl, hat⟩ := initCoords_ok (c := .LineString) (by simp) (ns := a.ns) (nss := a.nss)
    hne (l := l) rfl (kw := a.kw) rfl ha.1 ha.2
  refine ⟨.obj _ ns' nss' attrs, ?_, geometry_line h hat⟩
  simp only [createStep, shape, hne, if_true]
  exact hv

theorem create_ring {a : GeoArgs F} (ha : a.ok) {l : List (Pt F)} (h : NormalRing l)
    (ms : List (Except Err (Val Cls F))) :
    ∃ v, createStep a (.linearRing l) ms = .ok v ∧ geometry fastkml v = .ok (some (.linearRing l)) := by
  have hne : (Geo.linearRing l).nonEmpty = true := Normal.nonEmpty (g := .linearRing l) h
  obtain ⟨v, ns', nss', attrs, n, m, hv, rfl, hat⟩ := initCoords_ok (c := .LinearRing) (by simp) (ns := a.ns) (nss := a.nss)
    hne (l := l) rfl (kw := a.kw) rfl ha.1 ha.2
  refine ⟨.obj _ ns' nss' attrs, ?_, geometry_ring h hat⟩
  simp only [createStep, shape, hne, if_true]
  exact hv

theorem create_polygon {a : GeoArgs F} (ha : a.ok) {s : List (Pt F)} {hs : List (List (Pt F))}
    (h : NormalRing s) (hh : ∀ l ∈ hs, NormalRing l) (ms : List (Except Err (Val Cls F))) :
    ∃ v, createStep a (.polygon s hs) ms = .ok v ∧ geometry fastkml v = .ok (some (.polygon s hs)) := by
  have hne : (Geo.polygon s hs).nonEmpty = true := Normal.nonEmpty (g := .polygon s hs) ⟨h, hh⟩
  obtain ⟨v, hv, hg⟩ := initPolygon_ok h hh (ns := a.ns) (nss := a.nss) (kw := a.kw) rfl ha.1 ha.2
  refine ⟨v, ?_, hg⟩
  simp only [createStep, shape, hne, if_true]
  exact hv

theorem create_multi {a : GeoArgs F} (ha : a.ok) {g : Geo F} (hne : g.nonEmpty = true)
    (hc : (mapToKml.find? fun p => g.isInst p.1).map Prod.snd = some .MultiGeometry)
    {ms : List (Except Err (Val Cls F))} {vs : List (Val Cls F)} {gs : List (Geo F)}
    (hms : seqE ms = .ok vs) (hg : vs.map (geometry fastkml) = gs.map fun g => .ok (some g))
    (hgs : gs ≠ []) (h : ∀ g ∈ gs, g.nonEmpty = true) :
    ∃ v, createStep a g ms = .ok v ∧ geometry fastkml v = .ok (some (gather gs)) := by
  obtain ⟨v, hv, hgv⟩ := initMulti_ok hms hg hgs h (ns := a.ns) (nss := a.nss) (kw := a.kw) rfl ha.1 ha.2
  refine ⟨v, ?_, hgv⟩
  simp only [createStep, shape, hne, if_true]
  cases hf : mapToKml.find? fun p => g.isInst p.1 with
  | none => rw [hf] at hc; simp at hc
  | some p =>
    rw [hf] at hc
    simp only [Option.map_some, Option.some.injEq] at hc
    simp only [hc]
    exact hv

/-- The members of a homogeneous multi-part geometry. -/
theorem create_members {α : Type} {f : α → Except Err (Val Cls F)} {k : α → Geo F} {l : List α}
    (h : ∀ x ∈ l, ∃ v, f x = .ok v ∧ geometry fastkml v = .ok (some (k x))) :
    ∃ vs, seqE (l.map f) = .ok vs ∧ vs.map (geometry fastkml) = (l.map k).map fun g => .ok (some g) := by
  induction l with
  | nil => exact ⟨[], rfl, rfl⟩
  | cons x l ih =>
    obtain ⟨v, hv, hg⟩ := h x (by simp)
    obtain ⟨vs, hvs, hgs⟩ := ih fun y hy => h y (by simp [hy])
    exact ⟨v :: vs, by simp only [List.map_cons, seqE, hv, hvs], by simp only [List.map_cons, hg, hgs]⟩

mutual
theorem createKml_normal {a : GeoArgs F} (ha : a.ok) : (g : Geo F) → Normal g →
    (toMulti g).nonEmpty = true ∧
    ∃ v, createKml a g = .ok v ∧ geometry fastkml v = .ok (some (toMulti g))
  | .point p, h => ⟨Normal.nonEmpty h, by simpa only [createKml, toMulti] using create_point ha h []⟩
  | .lineString l, h => ⟨Normal.nonEmpty h, by simpa only [createKml, toMulti] using create_line ha h []⟩
  | .linearRing l, h => ⟨Normal.nonEmpty h, by simpa only [createKml, toMulti] using create_ring ha h []⟩
  | .polygon s hs, h =>
    ⟨Normal.nonEmpty h, by simpa only [createKml, toMulti] using create_polygon ha h.1 h.2 []⟩
  | .multiPoint l, h => by
    refine ⟨Normal.nonEmpty h, ?_⟩
    obtain ⟨vs, h1, h2⟩ := create_members (f := fun p => createStep a.members (.point p) []) (k := .point)
      fun x hx => create_point a.members_ok (h.2 x hx) []
    obtain ⟨v, hv, hg⟩ := create_multi ha (g := .multiPoint l) (Normal.nonEmpty h) rfl h1 h2
      (by simpa using h.1) (by
        intro g hg
        obtain ⟨p, hp, rfl⟩ := List.mem_map.mp hg
        exact Normal.nonEmpty (g := .point p) (h.2 p hp))
    rw [gather_points] at hg
    simp only [createKml, toMulti]
    exact ⟨v, hv, hg⟩
  | .multiLineString l, h => by
    refine ⟨Normal.nonEmpty h, ?_⟩
    obtain ⟨vs, h1, h2⟩ := create_members (f := fun p => createStep a.members (.lineString p) []) (k := .lineString)
      fun x hx => create_line a.members_ok (h.2 x hx) []
    obtain ⟨v, hv, hg⟩ := create_multi ha (g := .multiLineString l) (Normal.nonEmpty h) rfl h1 h2
      (by simpa using h.1) (by
        intro g hg
        obtain ⟨p, hp, rfl⟩ := List.mem_map.mp hg
        exact Normal.nonEmpty (g := .lineString p) (h.2 p hp))
    rw [gather_lines h.1] at hg
    simp only [createKml, toMulti]
    exact ⟨v, hv, hg⟩
  | .multiPolygon l, h => by
    refine ⟨Normal.nonEmpty h, ?_⟩
    obtain ⟨vs, h1, h2⟩ := create_members (f := fun p => createStep a.members (.polygon p.1 p.2) [])
      (k := fun p => .polygon p.1 p.2) fun x hx => create_polygon a.members_ok (h.2 x hx).1 (h.2 x hx).2 []
    obtain ⟨v, hv, hg⟩ := create_multi ha (g := .multiPolygon l) (Normal.nonEmpty h) rfl h1 h2
      (by simpa using h.1) (by
        intro g hg
        obtain ⟨p, hp, rfl⟩ := List.mem_map.mp hg
        exact Normal.nonEmpty (g := .polygon p.1 p.2) (h.2 p hp))
    rw [gather_polygons h.1] at hg
    simp only [createKml, toMulti]
    exact ⟨v, hv, hg⟩
  | .collection l, h => by
    have hn := Normal.nonEmpty h
    simp only [Normal] at h
    obtain ⟨h1, vs, h2, h3⟩ := createKmls_normal a.members_ok l h.2
    have hne : toMultis l ≠ [] := by
      cases l with
      | nil => exact absurd rfl h.1
      | cons => simp [toMultis]
    obtain ⟨v, hv, hg⟩ := create_multi ha (g := .collection l) hn rfl h2 h3 hne h1
    simp only [createKml, toMulti]
    exact ⟨gather_nonEmpty hne h1, v, hv, hg⟩
termination_by structural g => g

theorem createKmls_normal {a : GeoArgs F} (ha : a.ok) : (l : List (Geo F)) → Normals l →
    (∀ g ∈ toMultis l, g.nonEmpty = true) ∧
    ∃ vs, seqE (createKmls a l) = .ok vs ∧
      vs.map (geometry fastkml) = (toMultis l).map fun g => .ok (some g)
  | [], _ => ⟨by simp [toMultis], [], by simp [createKmls, seqE], by simp [toMultis]⟩
  | g :: gs, h => by
    simp only [Normals] at h
    obtain ⟨h1, v, hv, hg⟩ := createKml_normal ha g h.1
    obtain ⟨h2, vs, hvs, hgs⟩ := createKmls_normal ha gs h.2
    simp only [createKmls, toMultis]
    refine ⟨?_, v :: vs, by simp only [seqE, hv, hvs], by simp only [List.map_cons, hg, hgs]⟩
    intro x hx
    rcases List.mem_cons.mp hx with rfl | hx
    · exact h1
    · exact h2 x hx
termination_by structural l => l
end

end Verif
