import Verif.Lemmas.Make
import Verif.Props.Writing
import Verif.Props.Cycle

/-!
# Geometries (C27-C31)
-/

set_option linter.unusedSectionVars false
set_option linter.unusedSimpArgs false

namespace Verif

open Spec

variable {F : Type} [PyExt F]

/-! ## C27 Geometry conversion -/

/-- **C27.** `create_kml_geometry(g)` succeeds for every non-empty geometry `g` in
the normal form of pygeoif and every id, and the `geometry` of the result is `g`,
with homogeneous collections replaced by the corresponding `Multi` type. -/
theorem C27_convert {g : Geo F} (h : Normal g) {a : GeoArgs F}
    (hi : a.id = .none ∨ ∃ s, a.id = .str s) (ht : a.targetId = .none ∨ ∃ s, a.targetId = .str s) :
    ∃ v, createKml a g = .ok v ∧ geometry fastkml v = .ok (some (toMulti g)) := by
  have ha : a.ok := by
    constructor
    · rcases hi with h | ⟨s, h⟩ <;> rw [h] <;> rfl
    · rcases ht with h | ⟨s, h⟩ <;> rw [h] <;> rfl
  exact (createKml_normal ha g h).2

/-- **C27.** Geometries without collections are returned unchanged. -/
theorem C27_same {g : Geo F} (h : Normal g) (hc : ∀ l, g ≠ .collection l) {a : GeoArgs F}
    (hi : a.id = .none ∨ ∃ s, a.id = .str s) (ht : a.targetId = .none ∨ ∃ s, a.targetId = .str s) :
    ∃ v, createKml a g = .ok v ∧ geometry fastkml v = .ok (some g) := by
  obtain ⟨v, h1, h2⟩ := C27_convert h hi ht
  refine ⟨v, h1, ?_⟩
  rw [h2]
  cases g <;> first | rfl | exact absurd rfl (hc _)

/-- An empty geometry cannot be converted: pygeoif raises `AttributeError`. -/
theorem C27_empty {g : Geo F} (h : g.nonEmpty = false) (a : GeoArgs F) :
    createKml a g = .error .illTyped := by
  cases g <;> simp only [createKml, createStep, shape, h] <;> rfl

/-- The KML class for a geometry. -/
def Spec.kmlClass : Geo F → Cls
  | .point _ => .Point
  | .lineString _ => .LineString
  | .linearRing _ => .LinearRing
  | .polygon _ _ => .Polygon
  | .multiPoint _ => .MultiGeometry
  | .multiLineString _ => .MultiGeometry
  | .multiPolygon _ => .MultiGeometry
  | .collection _ => .MultiGeometry

/-- `None` becomes the empty string. -/
def Spec.orEmpty : Val Cls F → Val Cls F
  | .none => .str []
  | v => v

/-- The constructor call behind a created geometry. -/
def CreatedBy (a : GeoArgs F) (g : Geo F) (ms : List (Except Err (Val Cls F))) (v : Val Cls F) : Prop :=
  ∃ kw, init fastkml (kmlClass g) a.ns a.nss kw = .ok v ∧
    (∀ k, k ≠ s% "kml_coordinates" → k ≠ s% "outer_boundary" → k ≠ s% "inner_boundaries" →
      k ≠ s% "kml_geometries" → (k = s% "tessellate" → kmlClass g ≠ .Point) →
      (k = s% "extrude" ∨ k = s% "tessellate" ∨ k = s% "altitude_mode" → kmlClass g ≠ .MultiGeometry) →
      kwGet k kw = kwGet k a.kw) ∧
    (kmlClass g = .MultiGeometry → ∃ vs, seqE ms = .ok vs ∧
      kwGet (s% "kml_geometries") kw = .list vs)

theorem createStep_class {a : GeoArgs F} {g : Geo F} {ms : List (Except Err (Val Cls F))}
    {v : Val Cls F} (h : createStep a g ms = .ok v) :
    CreatedBy a g ms v := by
  have hg : g.nonEmpty = true := by
    cases hh : g.nonEmpty with
    | true => rfl
    | false => simp only [createStep, shape, hh] at h; cases h
  simp only [createStep, shape, hg, if_true] at h
  have atom : ∀ c, c = kmlClass g → c ≠ .MultiGeometry → initCoords c a.ns a.nss (some g) a.kw = .ok v →
      CreatedBy a g ms v := by
    intro c hc hcm h
    simp only [initCoords] at h
    generalize hkw : (if c = Cls.Point then ddel (s% "tessellate") a.kw else a.kw) = kw' at h
    have hnone : (kwGet (s% "kml_coordinates") kw').notNone = false := by
      rw [← hkw]
      split
      · rw [kwGet_ddel, if_neg (by decide)]; rfl
      · rfl
    simp only [hnone, Bool.false_eq_true, if_false, hg, if_true] at h
    split at h
    · cases h
    · rename_i k hk
      refine ⟨_, hc ▸ h, ?_, by rw [← hc]; intro h; exact absurd h hcm⟩
      intro k' h1 _ _ _ h5 _
      rw [kwGet_dset, if_neg (Ne.symm h1), ← hkw]
      split
      · rename_i hp
        rw [kwGet_ddel, if_neg]
        rintro rfl
        exact h5 rfl (hc ▸ hp)
      · rfl
  have multi : kmlClass g = .MultiGeometry → initMulti a.ns a.nss (some ms) a.kw = .ok v →
      CreatedBy a g ms v := by
    intro hc h
    simp only [initMulti] at h
    have hnone : kwGet (s% "kml_geometries") (ddel (s% "extrude") (ddel (s% "tessellate")
        (ddel (s% "altitude_mode") a.kw))) = .none := by
      rw [kwGet_ddel, if_neg (by decide), kwGet_ddel, if_neg (by decide), kwGet_ddel, if_neg (by decide)]
      rfl
    rw [hnone, if_neg (by simp [Val.notNone])] at h
    split at h
    · cases h
    · rename_i vs hvs
      refine ⟨_, hc ▸ h, ?_, fun _ => ⟨vs, hvs, by rw [kwGet_dset, if_pos rfl]⟩⟩
      intro k _ _ _ h4 _ h6
      have h1 : ¬ (k = s% "extrude" ∨ k = s% "tessellate" ∨ k = s% "altitude_mode") := fun hh => h6 hh hc
      rw [not_or, not_or] at h1
      rw [kwGet_dset, if_neg (Ne.symm h4), kwGet_ddel, if_neg (Ne.symm h1.1), kwGet_ddel,
        if_neg (Ne.symm h1.2.1), kwGet_ddel, if_neg (Ne.symm h1.2.2)]
  cases g with
  | point p => exact atom .Point rfl (by decide) h
  | lineString l => exact atom .LineString rfl (by decide) h
  | linearRing l => exact atom .LinearRing rfl (by decide) h
  | polygon s hs =>
    have h' : initPolygon a.ns a.nss (some (.polygon s hs)) a.kw = .ok v := h
    simp only [initPolygon] at h'
    rw [if_neg (by simp [kwGet, dget, GeoArgs.kw, Val.notNone])] at h'
    split at h'
    · cases h'
    · split at h'
      · cases h'
      · refine ⟨_, h', ?_, fun h => by cases h⟩
        intro k _ h2 h3 _ _ _
        rw [kwGet_dset, if_neg (Ne.symm h3), kwGet_dset, if_neg (Ne.symm h2)]
  | multiPoint l => exact multi rfl h
  | multiLineString l => exact multi rfl h
  | multiPolygon l => exact multi rfl h
  | collection l => exact multi rfl h


theorem createKml_step (a : GeoArgs F) (g : Geo F) :
    createKml a g = createStep a g (g.geoms.map (createKml a.members)) := by
  have hs : ∀ l : List (Geo F), createKmls a.members l = l.map (createKml a.members) := by
    intro l
    induction l with
    | nil => simp only [createKmls, List.map_nil]
    | cons g l ih => simp only [createKmls, List.map_cons, ih]
  cases g with
  | collection l => simp only [createKml, Geo.geoms, hs]
  | multiPoint l =>
    simp only [createKml, Geo.geoms, List.map_map]
    congr 1
  | multiLineString l =>
    simp only [createKml, Geo.geoms, List.map_map]
    congr 1
  | multiPolygon l =>
    simp only [createKml, Geo.geoms, List.map_map]
    congr 1
  | _ => simp only [createKml, Geo.geoms, List.map_nil]

theorem init_ns {c : Cls} {ns : Option Str} {nss : NsMap} {kw : List (Str × Val Cls F)} {v : Val Cls F}
    (h : init fastkml c ns nss kw = .ok v) :
    ∃ attrs, v = .obj c (ns.getD (nsGet (mergeNs nss) (fastkml.info c).nsid)) (mergeNs nss) attrs := by
  obtain ⟨_, _, _, _, _, _, h⟩ := construct_ok h
  exact ⟨_, h⟩

theorem orEmpty_eq {v w : Val Cls F} (h : normalise fastkml .orEmpty v = .ok w) : w = orEmpty v := by
  cases v <;> simp [normalise, orEmpty] at h ⊢ <;> exact h.symm

theorem kmlClass_mem (g : Geo F) :
    kmlClass g ∈ [Cls.Point, .LineString, .LinearRing, .Polygon, .MultiGeometry] := by
  cases g <;> simp [kmlClass]

/-- **C27.** The created object has the KML class of the geometry, the given
namespace (or that of the class), the given ids, and - for points, lines, rings
and polygons - the given `extrude`, `tessellate` and `altitude_mode`. -/
theorem C27_attributes {g : Geo F} {a : GeoArgs F} {v : Val Cls F} (h : createKml a g = .ok v) :
    ∃ attrs, v = .obj (kmlClass g)
        (a.ns.getD (nsGet (mergeNs a.nss) (fastkml.info (kmlClass g)).nsid)) (mergeNs a.nss) attrs ∧
      attrOf (s% "id") attrs = orEmpty a.id ∧ attrOf (s% "target_id") attrs = orEmpty a.targetId ∧
      (kmlClass g ≠ .MultiGeometry →
        attrOf (s% "extrude") attrs = a.extrude ∧ attrOf (s% "altitude_mode") attrs = a.altitudeMode ∧
        (kmlClass g ≠ .Point → attrOf (s% "tessellate") attrs = a.tessellate)) := by
  rw [createKml_step] at h
  obtain ⟨kw, hk, hkw, _⟩ := createStep_class h
  obtain ⟨attrs, rfl⟩ := init_ns hk
  have get : ∀ k n, (k, n) ∈ (fastkml.info (kmlClass g)).slots →
      normalise fastkml n (kwGet k kw) = .ok (attrOf k attrs) := by
    intro k n hkn
    obtain ⟨ns', attrs', w, h1, h2, h3⟩ := init_slot hk (slots_nodup _) hkn
    cases h1
    rw [h2, h3]
  refine ⟨attrs, rfl, ?_, ?_, ?_⟩
  · have := get (s% "id") .orEmpty (by
      have : ∀ c ∈ [Cls.Point, .LineString, .LinearRing, .Polygon, .MultiGeometry],
        (s% "id", Norm.orEmpty) ∈ (fastkml.info c).slots := by decide
      exact this _ (kmlClass_mem g))
    rw [hkw _ (by decide) (by decide) (by decide) (by decide) (fun h => absurd h (by decide))
      (fun h => absurd h (by decide))] at this
    exact orEmpty_eq this
  · have := get (s% "target_id") .orEmpty (by
      have : ∀ c ∈ [Cls.Point, .LineString, .LinearRing, .Polygon, .MultiGeometry],
        (s% "target_id", Norm.orEmpty) ∈ (fastkml.info c).slots := by decide
      exact this _ (kmlClass_mem g))
    rw [hkw _ (by decide) (by decide) (by decide) (by decide) (fun h => absurd h (by decide))
      (fun h => absurd h (by decide))] at this
    exact orEmpty_eq this
  · intro hm
    refine ⟨?_, ?_, ?_⟩
    · have := get (s% "extrude") .raw (by
        have : ∀ c ∈ [Cls.Point, .LineString, .LinearRing, .Polygon, .MultiGeometry], c ≠ .MultiGeometry →
          (s% "extrude", Norm.raw) ∈ (fastkml.info c).slots := by decide
        exact this _ (kmlClass_mem g) hm)
      rw [hkw _ (by decide) (by decide) (by decide) (by decide) (fun h => absurd h (by decide))
        (fun _ => hm)] at this
      exact (Except.ok.inj this).symm
    · have := get (s% "altitude_mode") .raw (by
        have : ∀ c ∈ [Cls.Point, .LineString, .LinearRing, .Polygon, .MultiGeometry], c ≠ .MultiGeometry →
          (s% "altitude_mode", Norm.raw) ∈ (fastkml.info c).slots := by decide
        exact this _ (kmlClass_mem g) hm)
      rw [hkw _ (by decide) (by decide) (by decide) (by decide) (fun h => absurd h (by decide))
        (fun _ => hm)] at this
      exact (Except.ok.inj this).symm
    · intro hp
      have := get (s% "tessellate") .raw (by
        have : ∀ c ∈ [Cls.Point, .LineString, .LinearRing, .Polygon, .MultiGeometry], c ≠ .MultiGeometry →
          c ≠ .Point → (s% "tessellate", Norm.raw) ∈ (fastkml.info c).slots := by decide
        exact this _ (kmlClass_mem g) hm hp)
      rw [hkw _ (by decide) (by decide) (by decide) (by decide) (fun _ => hp)
        (fun _ => hm)] at this
      exact (Except.ok.inj this).symm

/-- **C27.** The parts of a multi-part geometry are converted one by one, in
order, with the same `extrude`, `tessellate`, `altitude_mode` and namespace and
without ids. -/
theorem C27_members {g : Geo F} {a : GeoArgs F} {v : Val Cls F} (hg : kmlClass g = .MultiGeometry)
    (h : createKml a g = .ok v) :
    ∃ ns nss attrs vs, v = .obj .MultiGeometry ns nss attrs ∧
      attrOf (s% "kml_geometries") attrs = .list vs ∧
      All2 (fun p w => createKml { a with id := .none, targetId := .none } p = .ok w) g.geoms vs := by
  rw [createKml_step] at h
  obtain ⟨kw, hk, _, hvs⟩ := createStep_class h
  obtain ⟨vs, h1, h2⟩ := hvs hg
  rw [hg] at hk
  obtain ⟨ns', attrs, w, rfl, h4, h5⟩ := init_slot hk (slots_nodup _) (a := s% "kml_geometries")
    (n := .listOr) (by decide)
  rw [h2] at h4
  refine ⟨ns', _, attrs, vs, rfl, ?_, ?_⟩
  · rw [h5]; exact (Except.ok.inj h4).symm
  · have key : ∀ (l : List (Geo F)) (vs : List (Val Cls F)), seqE (l.map (createKml a.members)) = .ok vs →
        All2 (fun p w => createKml { a with id := .none, targetId := .none } p = .ok w) l vs := by
      intro l
      induction l with
      | nil => intro vs h; cases h; exact .nil
      | cons g l ih =>
        intro vs h
        simp only [List.map_cons, seqE] at h
        split at h
        · cases h
        · rename_i v hv
          split at h
          · cases h
          · rename_i vs' hvs'
            cases h
            exact .cons hv (ih _ hvs')
    exact key _ _ h1

/-! ## C28 Classification -/

/-- **C28.** `create_multigeometry` returns `None` iff there are no geometries. -/
theorem C28_none (gs : List (Geo F)) : createMulti gs = none ↔ gs = [] := by
  cases gs with
  | nil => simp [createMulti]
  | cons g gs => simp only [createMulti]; split <;> (try split) <;> (try split) <;> simp

theorem allPoints_iff {gs : List (Geo F)} {ps : List (Pt F)} :
    allPoints gs = some ps ↔ gs = ps.map .point := by
  induction gs generalizing ps with
  | nil => cases ps <;> simp [allPoints]
  | cons g gs ih =>
    cases g <;> cases ps <;> simp [allPoints, ih, and_comm]
    exact ⟨fun ⟨_, ⟨h1, h2⟩, h3⟩ => ⟨h1, h2 ▸ h3⟩, fun ⟨h1, h2⟩ => ⟨_, ⟨h1, rfl⟩, h2⟩⟩

theorem allLines_iff {gs : List (Geo F)} {ps : List (List (Pt F))} :
    allLines gs = some ps ↔ gs = ps.map .lineString := by
  induction gs generalizing ps with
  | nil => cases ps <;> simp [allLines]
  | cons g gs ih =>
    cases g <;> cases ps <;> simp [allLines, ih, and_comm]
    exact ⟨fun ⟨_, ⟨h1, h2⟩, h3⟩ => ⟨h1, h2 ▸ h3⟩, fun ⟨h1, h2⟩ => ⟨_, ⟨h1, rfl⟩, h2⟩⟩

theorem allPolygons_iff {gs : List (Geo F)} {ps : List (List (Pt F) × List (List (Pt F)))} :
    allPolygons gs = some ps ↔ gs = ps.map fun p => .polygon p.1 p.2 := by
  induction gs generalizing ps with
  | nil => cases ps <;> simp [allPolygons]
  | cons g gs ih =>
    cases g <;> cases ps <;> simp [allPolygons, ih, and_comm]
    exact ⟨fun ⟨_, ⟨h1, h2⟩, h3⟩ => ⟨⟨congrArg Prod.fst h2, congrArg Prod.snd h2⟩, h1 ▸ h3⟩,
      fun ⟨⟨h0, h1⟩, h2⟩ => ⟨_, ⟨rfl, Prod.ext h0 h1⟩, h2⟩⟩

/-- **C28.** It returns a `MultiPoint` of exactly the given points iff all members are points. -/
theorem C28_points (gs : List (Geo F)) (ps : List (Pt F)) :
    createMulti gs = some (.multiPoint ps) ↔ gs ≠ [] ∧ gs = ps.map .point := by
  rw [← allPoints_iff]
  cases gs with
  | nil => simp [createMulti]
  | cons g gs =>
    simp only [createMulti, ne_eq, reduceCtorEq, not_false_eq_true, true_and]
    split
    · rename_i h; rw [h]; simp
    · rename_i h; rw [h]; split <;> (try split) <;> simp

/-- **C28.** It returns a `MultiLineString` iff all members are line strings. -/
theorem C28_lines (gs : List (Geo F)) (ls : List (List (Pt F))) :
    createMulti gs = some (.multiLineString ls) ↔ gs ≠ [] ∧ gs = ls.map .lineString := by
  rw [← allLines_iff]
  cases gs with
  | nil => simp [createMulti]
  | cons g gs =>
    simp only [createMulti, ne_eq, reduceCtorEq, not_false_eq_true, true_and]
    split
    · rename_i h
      cases g <;> simp [allPoints, allLines] at h ⊢
    · split
      · rename_i h; rw [h]; simp
      · rename_i h; rw [h]; split <;> simp

/-- **C28.** It returns a `MultiPolygon` iff all members are polygons. -/
theorem C28_polygons (gs : List (Geo F)) (ps : List (List (Pt F) × List (List (Pt F)))) :
    createMulti gs = some (.multiPolygon ps) ↔
      gs ≠ [] ∧ gs = ps.map fun p => .polygon p.1 p.2 := by
  rw [← allPolygons_iff]
  cases gs with
  | nil => simp [createMulti]
  | cons g gs =>
    simp only [createMulti, ne_eq, reduceCtorEq, not_false_eq_true, true_and]
    split
    · rename_i h
      cases g <;> simp [allPoints, allPolygons] at h ⊢
    · split
      · rename_i h
        cases g <;> simp [allLines, allPolygons] at h ⊢
      · split
        · rename_i h; rw [h]; simp
        · rename_i h; rw [h]; simp

/-- **C28.** In all other cases it returns a `GeometryCollection` of the members
(pygeoif drops empty ones). -/
theorem C28_collection (gs l : List (Geo F)) :
    createMulti gs = some (.collection l) ↔ gs ≠ [] ∧ (∀ ps : List (Pt F), gs ≠ ps.map .point) ∧
      (∀ ls : List (List (Pt F)), gs ≠ ls.map .lineString) ∧
      (∀ ps : List (List (Pt F) × List (List (Pt F))), gs ≠ ps.map fun p => .polygon p.1 p.2) ∧
      l = gs.filter Geo.nonEmpty := by
  simp only [ne_eq, ← allPoints_iff, ← allLines_iff, ← allPolygons_iff]
  cases gs with
  | nil => simp [createMulti]
  | cons g gs =>
    simp only [createMulti, reduceCtorEq, not_false_eq_true, true_and]
    cases h1 : allPoints (g :: gs) with
    | some ps => simp
    | none =>
      cases h2 : allLines (g :: gs) with
      | some ps => simp
      | none =>
        cases h3 : allPolygons (g :: gs) with
        | some ps => simp
        | none =>
          simp only [reduceCtorEq, not_false_eq_true, implies_true, true_and, Option.some.injEq,
            Geo.collection.injEq]
          exact eq_comm

theorem someGeoms_filterMap {vs : List (Val Cls F)} {gs : List (Option (Geo F))}
    (hg : vs.map (geometry fastkml) = gs.map .ok) :
    someGeoms (vs.map (info fastkml)) = .ok (gs.filterMap fun g => g) := by
  induction vs generalizing gs with
  | nil =>
    cases gs with
    | nil => rfl
    | cons => simp at hg
  | cons v vs ih =>
    cases gs with
    | nil => simp at hg
    | cons g gs =>
      simp only [List.map_cons, List.cons.injEq, geometry] at hg
      simp only [List.map_cons, someGeoms, hg.1]
      cases g with
      | none => simpa using ih hg.2
      | some g => simp [ih hg.2]

/-- **C28.** The `geometry` of a `MultiGeometry` is `create_multigeometry` of the
non-empty geometries of its members. -/
theorem C28_multi {ns : Str} {nss : NsMap} {attrs : List (Str × Val Cls F)} {vs : List (Val Cls F)}
    {gs : List (Option (Geo F))} (h : attrOf (s% "kml_geometries") attrs = .list vs)
    (hg : vs.map (geometry fastkml) = gs.map .ok) :
    geometry fastkml (.obj .MultiGeometry ns nss attrs) =
      .ok (createMulti ((gs.filterMap fun g => g).filter Geo.nonEmpty)) := by
  rw [geometry_obj]
  show geomStep .multi _ = _
  have hgs := someGeoms_filterMap hg
  simp only [geomStep, viewOf_infoAttrs, h, infoElems_list, truthyGeoms, hgs]

/-! ## C29 Exclusive arguments -/

theorem notNone_iff {v : Val Cls F} : v.notNone = true ↔ v ≠ .none := by
  cases v <;> simp [Val.notNone]

theorem newCoordinates_error {g : Geo F} {e : Err} (h : newCoordinates g = .error e) :
    e = .illTyped ∨ e = .typeError := by
  simp only [newCoordinates] at h
  split at h
  · rename_i e' he
    cases h
    cases g <;> simp [Geo.coords] at he <;> exact Or.inl he.symm
  · exact init_error (by decide) h

/-- The only failure of the coordinate classes other than exclusive arguments is an
argument of a wrong type. -/
theorem initCoords_error {c : Cls} (hc : c = .Point ∨ c = .LineString ∨ c = .LinearRing)
    {ns : Option Str} {nss : NsMap} {g : Option (Geo F)} {kw : List (Str × Val Cls F)} {e : Err}
    (h : initCoords c ns nss g kw = .error e) :
    (e = .illTyped ∨ e = .typeError) ∨
    (e = .geometryError ∧ g ≠ none ∧ kwGet (s% "kml_coordinates") kw ≠ .none) := by
  have hs : simpleCls c = true := by rcases hc with rfl | rfl | rfl <;> decide
  have hkw : kwGet (s% "kml_coordinates") (if c = .Point then ddel (s% "tessellate") kw else kw) =
      kwGet (s% "kml_coordinates") kw := by
    split
    · rw [kwGet_ddel, if_neg (by decide)]
    · rfl
  simp only [initCoords] at h
  cases g with
  | none => exact Or.inl (init_error hs h)
  | some g =>
    simp only [hkw] at h
    split at h
    · rename_i hn
      cases h
      exact Or.inr ⟨rfl, by simp, notNone_iff.mp hn⟩
    · split at h
      · split at h
        · rename_i hk
          cases h
          exact Or.inl (newCoordinates_error hk)
        · exact Or.inl (init_error hs h)
      · exact Or.inl (init_error hs h)

/-- **C29.** `Point`, `LineString` and `LinearRing` raise `GeometryError` iff both
`geometry` and `kml_coordinates` are given. -/
theorem C29_coordinates {c : Cls} (hc : c = .Point ∨ c = .LineString ∨ c = .LinearRing)
    (ns : Option Str) (nss : NsMap) (g : Option (Geo F)) (kw : List (Str × Val Cls F)) :
    initCoords c ns nss g kw = .error .geometryError ↔
      g ≠ none ∧ kwGet (s% "kml_coordinates") kw ≠ .none := by
  constructor
  · intro h
    rcases initCoords_error hc h with (h | h) | h
    · cases h
    · cases h
    · exact h.2
  · rintro ⟨h1, h2⟩
    cases g with
    | none => exact absurd rfl h1
    | some g =>
      have hkw : kwGet (s% "kml_coordinates") (if c = .Point then ddel (s% "tessellate") kw else kw) =
          kwGet (s% "kml_coordinates") kw := by
        split
        · rw [kwGet_ddel, if_neg (by decide)]
        · rfl
      simp only [initCoords, hkw, notNone_iff.mpr h2, if_true]

theorem initBoundary_error {c : Cls} (hc : c = .BoundaryIs ∨ c = .OuterBoundaryIs ∨ c = .InnerBoundaryIs)
    {ns : Option Str} {nss : NsMap} {g : Option (Geo F)} {kw : List (Str × Val Cls F)} {e : Err}
    (h : initBoundary c ns nss g kw = .error e) :
    (e = .illTyped ∨ e = .typeError) ∨
    (e = .geometryError ∧ g ≠ none ∧ kwGet (s% "kml_geometry") kw ≠ .none) := by
  have hs : simpleCls c = true := by rcases hc with rfl | rfl | rfl <;> decide
  simp only [initBoundary] at h
  cases g with
  | none => exact Or.inl (init_error hs h)
  | some g =>
    simp only at h
    split at h
    · rename_i hn
      cases h
      exact Or.inr ⟨rfl, by simp, notNone_iff.mp hn⟩
    · split at h
      · split at h
        · rename_i hk
          cases h
          rcases initCoords_error (by simp) hk with h | h
          · exact Or.inl h
          · exact absurd rfl h.2.2
        · exact Or.inl (init_error hs h)
      · exact Or.inl (init_error hs h)

/-- **C29.** The boundary classes raise `GeometryError` iff both `geometry` and
`kml_geometry` are given. -/
theorem C29_boundary {c : Cls} (hc : c = .BoundaryIs ∨ c = .OuterBoundaryIs ∨ c = .InnerBoundaryIs)
    (ns : Option Str) (nss : NsMap) (g : Option (Geo F)) (kw : List (Str × Val Cls F)) :
    initBoundary c ns nss g kw = .error .geometryError ↔
      g ≠ none ∧ kwGet (s% "kml_geometry") kw ≠ .none := by
  constructor
  · intro h
    rcases initBoundary_error hc h with (h | h) | h
    · cases h
    · cases h
    · exact h.2
  · rintro ⟨h1, h2⟩
    cases g with
    | none => exact absurd rfl h1
    | some g => simp only [initBoundary, notNone_iff.mpr h2, if_true]

theorem seqE_error {α : Type} {l : List (Except Err α)} {e : Err} (h : seqE l = .error e) :
    .error e ∈ l := by
  induction l with
  | nil => cases h
  | cons x l ih =>
    simp only [seqE] at h
    split at h
    · cases h; simp
    · split at h
      · rename_i he
        cases h
        exact List.mem_cons_of_mem _ (ih he)
      · cases h

theorem initPolygon_error {ns : Option Str} {nss : NsMap} {g : Option (Geo F)}
    {kw : List (Str × Val Cls F)} {e : Err} (h : initPolygon ns nss g kw = .error e) :
    (e = .illTyped ∨ e = .typeError) ∨
    (e = .geometryError ∧ g ≠ none ∧ kwGet (s% "outer_boundary") kw ≠ .none) := by
  have hs : simpleCls .Polygon = true := by decide
  simp only [initPolygon] at h
  cases g with
  | none => exact Or.inl (init_error hs h)
  | some g =>
    simp only at h
    split at h
    · rename_i hn
      cases h
      exact Or.inr ⟨rfl, by simp, notNone_iff.mp hn⟩
    · split at h
      · split at h
        · rename_i hk
          cases h
          rcases initBoundary_error (by simp) hk with h | h
          · exact Or.inl h
          · exact absurd rfl h.2.2
        · split at h
          · rename_i hk
            cases h
            obtain ⟨x, _, hx⟩ := List.mem_map.mp (seqE_error hk)
            rcases initBoundary_error (by simp) hx with h | h
            · exact Or.inl h
            · exact absurd rfl h.2.2
          · exact Or.inl (init_error hs h)
      · cases h; exact Or.inl (Or.inl rfl)

/-- **C29.** `Polygon` raises `GeometryError` iff both `geometry` and
`outer_boundary` are given. -/
theorem C29_polygon (ns : Option Str) (nss : NsMap) (g : Option (Geo F)) (kw : List (Str × Val Cls F)) :
    initPolygon ns nss g kw = .error .geometryError ↔
      g ≠ none ∧ kwGet (s% "outer_boundary") kw ≠ .none := by
  constructor
  · intro h
    rcases initPolygon_error h with (h | h) | h
    · cases h
    · cases h
    · exact h.2
  · rintro ⟨h1, h2⟩
    cases g with
    | none => exact absurd rfl h1
    | some g => simp only [initPolygon, notNone_iff.mpr h2, if_true]

theorem kwGet_multi {k : Str} (h : k ≠ s% "extrude") (h' : k ≠ s% "tessellate")
    (h'' : k ≠ s% "altitude_mode") (kw : List (Str × Val Cls F)) :
    kwGet k (ddel (s% "extrude") (ddel (s% "tessellate") (ddel (s% "altitude_mode") kw))) =
      kwGet k kw := by
  rw [kwGet_ddel, if_neg (Ne.symm h), kwGet_ddel, if_neg (Ne.symm h'), kwGet_ddel, if_neg (Ne.symm h'')]

theorem initMulti_error {ns : Option Str} {nss : NsMap} {ms : Option (List (Except Err (Val Cls F)))}
    {kw : List (Str × Val Cls F)} {e : Err} (h : initMulti ns nss ms kw = .error e)
    (hms : ∀ l, ms = some l → ∀ e, .error e ∈ l → e = .illTyped ∨ e = .typeError) :
    (e = .illTyped ∨ e = .typeError) ∨
    (e = .geometryError ∧ ms ≠ none ∧ kwGet (s% "kml_geometries") kw ≠ .none) := by
  have hs : simpleCls .MultiGeometry = true := by decide
  simp only [initMulti] at h
  cases ms with
  | none => exact Or.inl (init_error hs h)
  | some l =>
    simp only [kwGet_multi (k := s% "kml_geometries") (by decide) (by decide) (by decide)] at h
    split at h
    · rename_i hn
      cases h
      exact Or.inr ⟨rfl, by simp, notNone_iff.mp hn⟩
    · split at h
      · rename_i hk
        cases h
        exact Or.inl (hms l rfl _ (seqE_error hk))
      · exact Or.inl (init_error hs h)

theorem createStep_error {a : GeoArgs F} {g : Geo F} {ms : List (Except Err (Val Cls F))} {e : Err}
    (h : createStep a g ms = .error e) (hms : ∀ e, .error e ∈ ms → e = .illTyped ∨ e = .typeError) :
    e = .illTyped ∨ e = .typeError := by
  cases hg : g.nonEmpty with
  | false => simp only [createStep, shape, hg] at h; cases h; exact Or.inl rfl
  | true =>
    simp only [createStep, shape, hg, if_true] at h
    have multi : initMulti a.ns a.nss (some ms) a.kw = .error e → e = .illTyped ∨ e = .typeError := by
      intro h
      rcases initMulti_error h (by intro l hl; cases hl; exact hms) with h | h
      · exact h
      · exact absurd rfl h.2.2
    have atom : ∀ c, c = .Point ∨ c = .LineString ∨ c = .LinearRing →
        initCoords c a.ns a.nss (some g) a.kw = .error e → e = .illTyped ∨ e = .typeError := by
      intro c hc h
      rcases initCoords_error hc h with h | h
      · exact h
      · exact absurd rfl h.2.2
    cases g with
    | point p => exact atom .Point (by simp) h
    | lineString l => exact atom .LineString (by simp) h
    | linearRing l => exact atom .LinearRing (by simp) h
    | polygon s hs =>
      have h' : initPolygon a.ns a.nss (some (.polygon s hs)) a.kw = .error e := h
      rcases initPolygon_error h' with h | h
      · exact h
      · exact absurd rfl h.2.2
    | multiPoint l => exact multi h
    | multiLineString l => exact multi h
    | multiPolygon l => exact multi h
    | collection l => exact multi h

mutual
theorem createKml_error : (g : Geo F) → (a : GeoArgs F) → (e : Err) → createKml a g = .error e →
    e = .illTyped ∨ e = .typeError
  | .point p, a, e, h => by simp only [createKml] at h; exact createStep_error h (by simp)
  | .lineString p, a, e, h => by simp only [createKml] at h; exact createStep_error h (by simp)
  | .linearRing p, a, e, h => by simp only [createKml] at h; exact createStep_error h (by simp)
  | .polygon s hs, a, e, h => by simp only [createKml] at h; exact createStep_error h (by simp)
  | .multiPoint l, a, e, h => by
    simp only [createKml] at h
    refine createStep_error h fun e he => ?_
    obtain ⟨x, _, hx⟩ := List.mem_map.mp he
    exact createStep_error hx (by simp)
  | .multiLineString l, a, e, h => by
    simp only [createKml] at h
    refine createStep_error h fun e he => ?_
    obtain ⟨x, _, hx⟩ := List.mem_map.mp he
    exact createStep_error hx (by simp)
  | .multiPolygon l, a, e, h => by
    simp only [createKml] at h
    refine createStep_error h fun e he => ?_
    obtain ⟨x, _, hx⟩ := List.mem_map.mp he
    exact createStep_error hx (by simp)
  | .collection l, a, e, h => by
    simp only [createKml] at h
    exact createStep_error h fun e he => createKmls_error l a.members e he
termination_by structural g => g

theorem createKmls_error : (l : List (Geo F)) → (a : GeoArgs F) → (e : Err) → .error e ∈ createKmls a l →
    e = .illTyped ∨ e = .typeError
  | [], a, e, h => by simp [createKmls] at h
  | g :: gs, a, e, h => by
    simp only [createKmls, List.mem_cons] at h
    rcases h with h | h
    · exact createKml_error g a e h.symm
    · exact createKmls_error gs a e h
termination_by structural l => l
end

/-- **C29.** `MultiGeometry` raises `GeometryError` iff both `geometry` and
`kml_geometries` are given. -/
theorem C29_multi (ns : Option Str) (nss : NsMap) (g : Option (Geo F)) (kw : List (Str × Val Cls F)) :
    makeMulti ns nss g kw = .error .geometryError ↔
      g ≠ none ∧ kwGet (s% "kml_geometries") kw ≠ .none := by
  constructor
  · intro h
    rcases initMulti_error h (by
      intro l hl e he
      cases g with
      | none => simp at hl
      | some g =>
        simp only [Option.map_some, Option.some.injEq] at hl
        subst hl
        obtain ⟨x, _, hx⟩ := List.mem_map.mp he
        exact createKml_error x _ e hx) with (h | h) | h
    · cases h
    · cases h
    · exact ⟨by simpa using h.2.1, h.2.2⟩
  · rintro ⟨h1, h2⟩
    cases g with
    | none => exact absurd rfl h1
    | some g =>
      simp only [makeMulti, initMulti, Option.map_some,
        kwGet_multi (k := s% "kml_geometries") (by decide) (by decide) (by decide), notNone_iff.mpr h2, if_true]

/-- **C29.** Once its other arguments are accepted, `Placemark` raises `ValueError`
iff both `geometry` and `kml_geometry` are given and truthy. -/
theorem C29_placemark (ns : Option Str) (nss : NsMap) (g : Option (Geo F))
    (kw : List (Str × Val Cls F)) {b : Bool} (hb : truthy fastkml (kwGet (s% "kml_geometry") kw) = .ok b)
    {v : Val Cls F} (hv : init fastkml .Placemark ns nss (ddel (s% "kml_geometry") kw) = .ok v) :
    makePlacemark ns nss g kw = .error .valueError ↔ b = true ∧ ∃ g', g = some g' ∧ g'.nonEmpty = true := by
  simp only [makePlacemark, hb, hv]
  cases g with
  | none => simp
  | some g =>
    cases hn : g.nonEmpty with
    | false => simp [hn]
    | true =>
      cases b with
      | true => simp [hn]
      | false =>
        simp only [Bool.and_true, Bool.false_eq_true, if_false, if_true, false_and, iff_false, hn]
        split
        · rename_i e he
          intro h
          cases h
          rcases createKml_error g _ _ he with h | h <;> cases h
        · intro h; cases h

theorem init_placemark_error {ns : Option Str} {nss : NsMap} {kw : List (Str × Val Cls F)} {e : Err}
    (h : init fastkml .Placemark ns nss (ddel (s% "kml_geometry") kw) = .error e) :
    e = .illTyped ∨ e = .typeError := by
  simp only [init, construct] at h
  split at h
  · cases h; exact Or.inr rfl
  · rw [show (fastkml.info .Placemark).special = .placemark from rfl] at h
    simp only [specialInit, kwGet_ddel, if_true, truthy, info, Info.plain] at h
    split at h
    · rename_i he
      cases h
      exact Or.inl (fillSlots_simple (by decide) he)
    · cases h

/-- **C29.** The geometry of a placemark is the geometry it was made from (with
homogeneous collections as `Multi` geometries), or else that of the given KML
geometry object. -/
theorem C29_placemark_geometry {ns : Option Str} {nss : NsMap} {g : Geo F} (h : Normal g)
    {kw : List (Str × Val Cls F)} {v : Val Cls F} (hv : makePlacemark ns nss (some g) kw = .ok v) :
    geometry fastkml v = .ok (some (toMulti g)) := by
  have hn : g.nonEmpty = true := Normal.nonEmpty h
  obtain ⟨k, hk, hg⟩ := C27_convert h (a := ⟨ns, nss, .none, .none, .none, .none, .none⟩) (Or.inl rfl) (Or.inl rfl)
  simp only [makePlacemark] at hv
  split at hv
  · cases hv
  · rename_i v' hv'
    split at hv
    · cases hv
    · rename_i b hb
      simp only [hn, Bool.and_true, if_true, hk] at hv
      cases b with
      | true => cases hv
      | false =>
        simp only [Bool.false_eq_true, if_false, Except.ok.injEq] at hv
        obtain ⟨attrs, rfl⟩ := init_ns hv'
        subst hv
        show geometry fastkml (.obj .Placemark _ _ (dset (s% "kml_geometry") k attrs)) = _
        rw [geometry_obj]
        show geomStep .placemark _ = _
        have : attrOf (s% "kml_geometry") (dset (s% "kml_geometry") k attrs) = k := by
          simp [attrOf, dget_dset]
        simp only [geometry] at hg
        simp only [geomStep, viewOf_infoAttrs, this, hg]
        rw [if_pos]
        cases k <;> simp [Val.notNone]
        simp [info, Info.plain] at hg

/-- An optional argument: not given (or `None`), which counts as the empty list, or a list. -/
def Spec.Given {α : Type} (mk : List α → Val Cls F) (v : Val Cls F) (l : List α) : Prop :=
  v = mk l ∨ v = .none ∧ l = []

theorem trackItems_given {kw : List (Str × Val Cls F)} {ti : List (TrackItem F)}
    {ws : List (Option KmlDateTime)} {cs as : List (Pt F)}
    (h1 : Given .items (kwGet (s% "track_items") kw) ti) (h2 : Given .whens (kwGet (s% "whens") kw) ws)
    (h3 : Given .coords (kwGet (s% "coords") kw) cs) (h4 : Given .coords (kwGet (s% "angles") kw) as) :
    trackItems kw =
      if (ws ≠ [] ∨ cs ≠ []) ∧ ti ≠ [] then .error .valueError
      else if ti = [] ∧ ws ≠ [] ∧ cs ≠ [] then zipItems ws cs as
      else .ok ti := by
  unfold trackItems
  rcases h1 with h1 | ⟨h1, rfl⟩ <;> rcases h2 with h2 | ⟨h2, rfl⟩ <;>
    rcases h3 with h3 | ⟨h3, rfl⟩ <;> rcases h4 with h4 | ⟨h4, rfl⟩ <;>
    simp only [h1, h2, h3, h4]

/-- **C29.** `Track` raises `ValueError` iff `track_items` and one of `whens` and
`coords` are given (and not empty). -/
theorem C29_track (ns : Option Str) (nss : NsMap) {kw : List (Str × Val Cls F)}
    {ti : List (TrackItem F)} {ws : List (Option KmlDateTime)} {cs as : List (Pt F)}
    (h1 : Given .items (kwGet (s% "track_items") kw) ti) (h2 : Given .whens (kwGet (s% "whens") kw) ws)
    (h3 : Given .coords (kwGet (s% "coords") kw) cs) (h4 : Given .coords (kwGet (s% "angles") kw) as) :
    init fastkml .Track ns nss kw = .error .valueError ↔ ti ≠ [] ∧ (ws ≠ [] ∨ cs ≠ []) := by
  simp only [init, construct, show (fastkml.info .Track).special = .track from rfl,
    show (fastkml.info .Track).kwargs = true from rfl, specialInit, trackItems_given h1 h2 h3 h4,
    Bool.true_eq_false, and_false, if_false]
  by_cases h : (ws ≠ [] ∨ cs ≠ []) ∧ ti ≠ []
  · simp [h]
  · rw [if_neg h]
    have hn : ¬ (ti ≠ [] ∧ (ws ≠ [] ∨ cs ≠ [])) := fun h' => h ⟨h'.2, h'.1⟩
    simp only [hn, iff_false]
    split
    · rename_i e he
      split at he
      · rename_i e' he'
        cases he
        intro h
        cases h
        split at he'
        · have := zipItems_error he'; cases this
        · cases he'
      · cases he
    · split
      · rename_i he
        intro h
        cases h
        have := fillSlots_simple (by decide) he
        cases this
      · intro h; cases h

/-! ## C30 Rings are closed -/

/-- **C30.** The geometry of a `LinearRing` is a closed ring, whatever its
attributes are. -/
theorem C30_ring [LawfulExt F] {ns : Str} {nss : NsMap} {attrs : List (Str × Val Cls F)} {g : Geo F}
    (h : geometry fastkml (.obj .LinearRing ns nss attrs) = .ok (some g)) :
    ∃ l, g = .linearRing l ∧ Closed l := by
  rw [geometry_obj] at h
  have h : geomStep .linearRing (infoAttrs fastkml attrs) = .ok (some g) := h
  simp only [geomStep] at h
  split at h
  · cases h
  · cases h
  · split at h
    · cases h
    · split at h
      · cases h
      · rename_i cs _ _ l hl
        simp only [Except.ok.injEq] at h
        cases l with
        | none => cases h
        | some l =>
          simp only [Option.map_some, Option.some.injEq] at h
          refine ⟨l, h.symm, mkRing_closed (l := cs) ?_⟩
          cases hm : mkRing cs with
          | error e => rw [hm] at hl; cases e <;> cases hl
          | ok l' => rw [hm] at hl; cases hl; rfl

/-- **C30.** The geometry of a boundary around a `LinearRing` is a closed ring. -/
theorem C30_boundary [LawfulExt F] {c : Cls}
    (hc : c = .BoundaryIs ∨ c = .OuterBoundaryIs ∨ c = .InnerBoundaryIs) {ns : Str} {nss : NsMap}
    {attrs : List (Str × Val Cls F)} {n : Str} {m : NsMap} {r : List (Str × Val Cls F)} {g : Geo F}
    (hr : attrOf (s% "kml_geometry") attrs = .obj .LinearRing n m r)
    (h : geometry fastkml (.obj c ns nss attrs) = .ok (some g)) :
    ∃ l, g = .linearRing l ∧ Closed l := by
  rw [geometry_obj, show (fastkml.info c).geom = .boundary by rcases hc with rfl | rfl | rfl <;> rfl] at h
  simp only [geomStep, viewOf_infoAttrs, hr] at h
  split at h
  · cases h
  · cases h
  · exact C30_ring h

theorem ringsOf_all2 {gs : List (Geo F)} {rs : List (List (Pt F))} (h : ringsOf gs = .ok rs) :
    All2 (fun g r => ∃ l, g = .linearRing l ∧ mkRing l = .ok r) gs rs := by
  induction gs generalizing rs with
  | nil => cases h; exact .nil
  | cons g gs ih =>
    cases g <;> simp only [ringsOf] at h <;> try cases h
    rename_i l
    split at h
    · cases h
    · cases h
    · rename_i r rs' h1 h2
      cases h
      refine .cons ⟨l, rfl, ?_⟩ (ih h2)
      cases hm : mkRing l with
      | error e => rw [hm] at h1; cases e <;> cases h1
      | ok l' => rw [hm] at h1; cases h1; rfl

/-- What a successful `Polygon.geometry` is made of. -/
theorem polygon_parts {ns : Str} {nss : NsMap} {attrs : List (Str × Val Cls F)} {g : Geo F}
    (h : geometry fastkml (.obj .Polygon ns nss attrs) = .ok (some g)) :
    ∃ o s hs gs, geometry fastkml (attrOf (s% "outer_boundary") attrs) = .ok (some (.linearRing o)) ∧
      mkRing o = .ok s ∧ g = .polygon s hs ∧
      someGeoms (infoElems fastkml (attrOf (s% "inner_boundaries") attrs)) = .ok gs ∧
      All2 (fun g r => ∃ l, g = .linearRing l ∧ mkRing l = .ok r) gs hs := by
  rw [geometry_obj] at h
  have h : geomStep .polygon (infoAttrs fastkml attrs) = .ok (some g) := h
  simp only [geomStep, viewOf_infoAttrs] at h
  split at h
  · cases h
  · cases h
  · split at h
    · cases h
    · rename_i o ho
      split at h
      · cases h
      · cases h
      · rename_i s gs h1 h2
        split at h
        · cases h
        · rename_i hs h3
          cases h
          refine ⟨o, s, hs, gs, ho, ?_, rfl, h2, ringsOf_all2 h3⟩
          cases hm : mkRing o with
          | error e => rw [hm] at h1; cases e <;> cases h1
          | ok l' => rw [hm] at h1; cases h1; rfl
    · cases h

/-- **C30.** The shell and the holes of the geometry of a `Polygon` are closed
rings, whatever its attributes are. -/
theorem C30_polygon [LawfulExt F] {ns : Str} {nss : NsMap} {attrs : List (Str × Val Cls F)} {g : Geo F}
    (h : geometry fastkml (.obj .Polygon ns nss attrs) = .ok (some g)) :
    ∃ s hs, g = .polygon s hs ∧ Closed s ∧ ∀ h ∈ hs, Closed h := by
  obtain ⟨o, s, hs, gs, _, h1, rfl, _, h2⟩ := polygon_parts h
  refine ⟨s, hs, rfl, mkRing_closed h1, fun r hr => ?_⟩
  obtain ⟨g, _, l, _, hl⟩ := h2.mem_right hr
  exact mkRing_closed hl

/-! ## C31 Holes -/

/-- **C31.** The geometry of a `Polygon` has exactly one hole per inner boundary
that has a geometry, in order; its shell is the ring of the outer boundary. -/
theorem C31_holes {ns : Str} {nss : NsMap} {attrs : List (Str × Val Cls F)}
    {s : List (Pt F)} {hs : List (List (Pt F))} {bs : List (Val Cls F)} {gs : List (Option (Geo F))}
    (h : geometry fastkml (.obj .Polygon ns nss attrs) = .ok (some (.polygon s hs)))
    (hb : attrOf (s% "inner_boundaries") attrs = .list bs)
    (hg : bs.map (geometry fastkml) = gs.map .ok) :
    (∃ o, geometry fastkml (attrOf (s% "outer_boundary") attrs) = .ok (some (.linearRing o)) ∧
      mkRing o = .ok s) ∧
    All2 (fun g r => ∃ l, g = .linearRing l ∧ mkRing l = .ok r) (gs.filterMap fun g => g) hs := by
  obtain ⟨o, s', hs', gs', h1, h2, h3, h4, h5⟩ := polygon_parts h
  cases h3
  refine ⟨⟨o, h1, h2⟩, ?_⟩
  rw [hb, infoElems_list, someGeoms_filterMap hg] at h4
  cases h4
  exact h5

/-- **C31.** If the rings are in normal form the holes are exactly the rings of the
inner boundaries with a geometry, and the shell is that of the outer boundary. -/
theorem C31_normal {ns : Str} {nss : NsMap} {attrs : List (Str × Val Cls F)}
    {o : List (Pt F)} {bs : List (Val Cls F)} {rs : List (Option (List (Pt F)))}
    (ho : geometry fastkml (attrOf (s% "outer_boundary") attrs) = .ok (some (.linearRing o)))
    (hot : truthy fastkml (attrOf (s% "outer_boundary") attrs) = .ok true) (hn : NormalRing o)
    (hb : attrOf (s% "inner_boundaries") attrs = .list bs)
    (hg : bs.map (geometry fastkml) = rs.map fun r => .ok (r.map .linearRing))
    (hrs : ∀ r, some r ∈ rs → NormalRing r) :
    geometry fastkml (.obj .Polygon ns nss attrs) = .ok (some (.polygon o (rs.filterMap fun r => r))) := by
  rw [geometry_obj]
  show geomStep .polygon _ = _
  have h1 : someGeoms (bs.map (info fastkml)) = .ok ((rs.filterMap fun r => r).map .linearRing) := by
    have := someGeoms_filterMap (vs := bs) (gs := rs.map fun r => r.map .linearRing) (by
      rw [hg, List.map_map]; rfl)
    rw [this, List.filterMap_map, List.map_filterMap]
    rfl
  simp only [geometry] at ho
  simp only [truthy] at hot
  simp only [geomStep, viewOf_infoAttrs, ho, hot, hb, mkRing_normal hn, liftGeo, infoElems_list, h1]
  rw [ringsOf_normal]
  intro l hl
  obtain ⟨r, hr, h⟩ := List.mem_filterMap.mp hl
  subst h
  exact hrs l hr

/-- **C31.** A polygon has no geometry iff its outer boundary is missing or empty
(as long as its parts have a geometry or none). -/
theorem C31_none {ns : Str} {nss : NsMap} {attrs : List (Str × Val Cls F)} :
    geometry fastkml (.obj .Polygon ns nss attrs) = .ok none ↔
      truthy fastkml (attrOf (s% "outer_boundary") attrs) = .ok false := by
  rw [geometry_obj]
  show geomStep .polygon _ = _ ↔ _
  simp only [geomStep, viewOf_infoAttrs, truthy]
  split
  · rename_i h; rw [h]; simp
  · rename_i h; rw [h]
    simp
  · rename_i h; rw [h]
    split
    · simp
    · split
      · simp
      · simp
      · split <;> simp
    · simp

/-! ## The hypotheses are met -/

/-- No point twice in a row, as a program. -/
def distinctB : List (Pt F) → Bool
  | p :: q :: l => !ptBeq p q && distinctB (q :: l)
  | _ => true

theorem distinctB_spec {l : List (Pt F)} (h : distinctB l = true) :
    ∀ a p q b, l = a ++ p :: q :: b → ptBeq p q = false := by
  intro a
  induction a generalizing l with
  | nil =>
    rintro p q b rfl
    simp only [List.nil_append, distinctB, Bool.and_eq_true, Bool.not_eq_true'] at h
    exact h.1
  | cons x a ih =>
    rintro p q b rfl
    refine ih (l := a ++ p :: q :: b) ?_ p q b rfl
    cases a with
    | nil =>
      rw [List.cons_append, List.nil_append, distinctB, Bool.and_eq_true] at h
      exact h.2
    | cons y a => simp only [List.cons_append, distinctB, Bool.and_eq_true] at h; exact h.2

instance (p : Pt F) : Decidable (NormalPoint p) := by unfold NormalPoint; infer_instance

/-- The conditions on a line, as a program. -/
def normalLineB (l : List (Pt F)) : Bool :=
  !l.isEmpty && l.all (fun p => decide (NormalPoint p)) && l.all (fun p => l.all fun q => p.length == q.length)
    && distinctB l

theorem normalLineB_spec {l : List (Pt F)} (h : normalLineB l = true) : NormalLine l := by
  simp only [normalLineB, Bool.and_eq_true, List.all_eq_true, decide_eq_true_eq, beq_iff_eq] at h
  obtain ⟨⟨⟨h1, h2⟩, h3⟩, h4⟩ := h
  exact ⟨by cases l <;> simp at h1 ⊢, h2, h3, distinctB_spec h4⟩

theorem normalRing_of {l : List (Pt F)} (h : normalLineB l = true)
    (hc : (match l.head?, l.getLast? with | some p, some q => ptBeq p q | _, _ => true) = true) :
    NormalRing l := by
  refine ⟨normalLineB_spec h, fun p q hp hq => ?_⟩
  rw [hp, hq] at hc
  exact hc

/-- Two points. -/
def twoPoints : List (Geo Fix) := [.point [fx 1, fx 2], .point [fx 3, fx 4]]

/-- A square. -/
def square (a b : Int) : List (Pt Fix) :=
  [[fx a, fx a], [fx b, fx a], [fx b, fx b], [fx a, fx b], [fx a, fx a]]

/-- A collection of a collection of points, a line and a polygon with a hole. -/
def sampleGeo : Geo Fix := .collection [.collection twoPoints,
  .lineString [[fx 1, fx 2, fx 3], [fx 4, fx 5, fx 6]], .polygon (square 0 9) [square 2 5]]

theorem sampleGeo_normal : Normal sampleGeo := by
  simp only [sampleGeo, twoPoints, Normal, Normals]
  refine ⟨by simp, ⟨by simp, by decide +kernel, by decide +kernel, trivial⟩,
    normalLineB_spec (by decide +kernel), ⟨normalRing_of (by decide +kernel) (by decide +kernel), ?_⟩, trivial⟩
  intro h hh
  simp only [List.mem_singleton] at hh
  subst hh
  exact normalRing_of (by decide +kernel) (by decide +kernel)

/-- C27: the inner collection becomes a `MultiPoint`, the outer one stays. -/
example : ∃ v, createKml ⟨none, [], .str (s% "x"), .none, .bool true, .none, .none⟩ sampleGeo = .ok v ∧
    geometry fastkml v = .ok (some (.collection [.multiPoint [[fx 1, fx 2], [fx 3, fx 4]],
      .lineString [[fx 1, fx 2, fx 3], [fx 4, fx 5, fx 6]], .polygon (square 0 9) [square 2 5]])) :=
  C27_convert sampleGeo_normal (Or.inr ⟨_, rfl⟩) (Or.inl rfl)

/-- C27_same: a polygon. -/
example : ∃ v, createKml ⟨none, [], .none, .none, .none, .none, .none⟩ (Geo.polygon (square 0 9) [square 2 5]) = .ok v ∧
    geometry fastkml v = .ok (some (.polygon (square 0 9) [square 2 5])) := by
  refine C27_same ?_ (by simp) (Or.inl rfl) (Or.inl rfl)
  have := sampleGeo_normal
  simp only [sampleGeo, Normal, Normals] at this
  simpa only [Normal] using this.2.2.2.1

/-- C27_attributes, C27_members: such objects exist. -/
example : ∃ v, createKml ⟨none, [], .str (s% "x"), .none, .bool true, .none, .none⟩ sampleGeo = .ok v ∧
    kmlClass sampleGeo = .MultiGeometry := by
  obtain ⟨v, h, _⟩ := C27_convert sampleGeo_normal (a := ⟨none, [], .str (s% "x"), .none, .bool true, .none, .none⟩)
    (Or.inr ⟨_, rfl⟩) (Or.inl rfl)
  exact ⟨v, h, rfl⟩

/-- C28: mixed members. -/
example : ∃ l, createMulti (twoPoints ++ [.lineString [[fx 1, fx 2], [fx 3, fx 4]]]) = some (.collection l) :=
  ⟨_, rfl⟩

/-- C29: both arguments. -/
example : initCoords .Point none [] (some (.point [fx 1, fx 2]))
    [(s% "kml_coordinates", newObj .Coordinates [(s% "coords", .coords [[fx 1, fx 2]])])]
      = .error .geometryError := by decide +kernel

/-- C29: an empty geometry does not count for a placemark, but a non-empty one does. -/
example : makePlacemark none [] (some (.point [fx 1, fx 2]))
      [(s% "kml_geometry", newObj .Point [(s% "kml_coordinates",
        newObj .Coordinates [(s% "coords", .coords [[fx 1, fx 2]])])])] = .error .valueError ∧
    ∃ v, makePlacemark none [] (some (.lineString []))
      [(s% "kml_geometry", newObj .Point [(s% "kml_coordinates",
        newObj .Coordinates [(s% "coords", .coords [[fx 1, fx 2]])])])] = .ok v := by
  refine ⟨by decide +kernel, ?_⟩
  exact ⟨_, rfl⟩

/-- C29_track. -/
example : init (F := Fix) fastkml .Track none [] [(s% "track_items", .items [⟨none, [fx 1, fx 2], none⟩]),
    (s% "whens", .whens [none])] = .error .valueError :=
  (C29_track none [] (ti := [⟨none, [fx 1, fx 2], none⟩]) (ws := [none]) (cs := []) (as := [])
    (Or.inl rfl) (Or.inl rfl) (Or.inr ⟨rfl, rfl⟩) (Or.inr ⟨rfl, rfl⟩)).mpr ⟨by simp, Or.inl (by simp)⟩

/-- A polygon with a hole whose rings are not closed, and an inner boundary without coordinates. -/
def openPolygon : Val Cls Fix := newObj .Polygon [
  (s% "outer_boundary", newObj .OuterBoundaryIs [(s% "kml_geometry", newObj .LinearRing [(s% "kml_coordinates",
    newObj .Coordinates [(s% "coords", .coords [[fx 0, fx 0], [fx 9, fx 0], [fx 9, fx 9]])])])]),
  (s% "inner_boundaries", .list [newObj .InnerBoundaryIs [],
    newObj .InnerBoundaryIs [(s% "kml_geometry", newObj .LinearRing [(s% "kml_coordinates",
    newObj .Coordinates [(s% "coords", .coords [[fx 2, fx 1], [fx 4, fx 1], [fx 4, fx 3]])])])]])]

/-- C30, C31: its geometry has closed rings, and one hole. -/
example : geometry fastkml openPolygon = .ok (some (.polygon [[fx 0, fx 0], [fx 9, fx 0], [fx 9, fx 9], [fx 0, fx 0]]
    [[[fx 2, fx 1], [fx 4, fx 1], [fx 4, fx 3], [fx 2, fx 1]]])) := by rfl

/-- C31_none: a polygon without an outer boundary. -/
example : geometry fastkml (newObj .Polygon [] : Val Cls Fix) = .ok none ∧
    truthy fastkml (.none : Val Cls Fix) = .ok false := ⟨rfl, rfl⟩

end Verif
