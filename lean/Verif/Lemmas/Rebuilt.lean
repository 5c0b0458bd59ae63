import Verif.Lemmas.Alike
import Verif.Lemmas.ReprGeo
import Verif.Spec.Repr

/-!
# Objects with elements made anew from geometries
-/

set_option linter.unusedSectionVars false
set_option linter.unusedSimpArgs false

namespace Verif
open Spec

variable {F : Type} [PyExt F] [PyClose F] [LawfulExt F] [LawfulClose F]

/-! ## The geometries of lines, rings and polygons -/

theorem lineString_cases {ns : Str} {nss : NsMap} {attrs : List (Str × Val Cls F)}
    (hr : AllRegular (.obj .LineString ns nss attrs)) (hn : NoNaN (.obj .LineString ns nss attrs)) :
    geometry fastkml (.obj .LineString ns nss attrs) = .ok none ∨
    ∃ l, NormalLine l ∧ geometry fastkml (.obj .LineString ns nss attrs) = .ok (some (.lineString l)) := by
  obtain ⟨g, hg⟩ := geometry_total (x := ⟨.LineString, ns, nss, attrs⟩) hr
    (e := .LineString) (as := [s% "extrude", s% "tessellate"])
    (by simp only; decide +kernel)
  cases g with
  | none => exact Or.inl hg
  | some g =>
    obtain ⟨h1, _, _, h2, _⟩ := geometry_normal _ hr.typed hn _ _ _ _ rfl (by decide) (by decide) (by decide) g hg
    obtain ⟨l, rfl⟩ := h2 rfl
    simp only [Normal] at h1
    exact Or.inr ⟨l, h1, hg⟩

theorem linearRing_cases {ns : Str} {nss : NsMap} {attrs : List (Str × Val Cls F)}
    (hr : AllRegular (.obj .LinearRing ns nss attrs)) (hn : NoNaN (.obj .LinearRing ns nss attrs)) :
    geometry fastkml (.obj .LinearRing ns nss attrs) = .ok none ∨
    ∃ l, NormalRing l ∧ geometry fastkml (.obj .LinearRing ns nss attrs) = .ok (some (.linearRing l)) := by
  obtain ⟨g, hg⟩ := geometry_total (x := ⟨.LinearRing, ns, nss, attrs⟩) hr
    (e := .LineString) (as := [s% "extrude", s% "tessellate"])
    (by simp only; decide +kernel)
  cases g with
  | none => exact Or.inl hg
  | some g =>
    obtain ⟨h1, _, h2, _⟩ := geometry_normal _ hr.typed hn _ _ _ _ rfl (by decide) (by decide) (by decide) g hg
    obtain ⟨l, rfl⟩ := h2 rfl
    simp only [Normal] at h1
    exact Or.inr ⟨l, h1, hg⟩

theorem polygon_cases {ns : Str} {nss : NsMap} {attrs : List (Str × Val Cls F)}
    (hr : AllRegular (.obj .Polygon ns nss attrs)) (hn : NoNaN (.obj .Polygon ns nss attrs)) :
    geometry fastkml (.obj .Polygon ns nss attrs) = .ok none ∨
    ∃ s hs, NormalRing s ∧ (∀ h ∈ hs, NormalRing h) ∧
      geometry fastkml (.obj .Polygon ns nss attrs) = .ok (some (.polygon s hs)) := by
  obtain ⟨g, hg⟩ := geometry_total (x := ⟨.Polygon, ns, nss, attrs⟩) hr
    (e := .Polygon) (as := [s% "extrude", s% "tessellate"])
    (by simp only; decide +kernel)
  cases g with
  | none => exact Or.inl hg
  | some g =>
    obtain ⟨h1, _, _, _, h2⟩ := geometry_normal _ hr.typed hn _ _ _ _ rfl (by decide) (by decide) (by decide) g hg
    obtain ⟨s, hs, rfl⟩ := h2 rfl
    simp only [Normal] at h1
    exact Or.inr ⟨s, hs, h1.1, h1.2, hg⟩

/-! ## Attributes -/

theorem rebuiltAttrs_eq (attrs : List (Str × Val Cls F)) :
    rebuiltAttrs attrs = attrs.map fun p => (p.1, rebuilt p.2) := by
  induction attrs with
  | nil => simp only [rebuiltAttrs, List.map_nil]
  | cons p r ih => obtain ⟨a, v⟩ := p; simp only [rebuiltAttrs, List.map_cons, ih]

theorem rebuiltList_eq (l : List (Val Cls F)) : rebuiltList l = l.map rebuilt := by
  induction l with
  | nil => simp only [rebuiltList, List.map_nil]
  | cons v r ih => simp only [rebuiltList, List.map_cons, ih]

theorem attr_rebuilt (a : Str) (attrs : List (Str × Val Cls F)) :
    attr a (rebuiltAttrs attrs) = rebuilt (attr a attrs) := by
  unfold attr
  rw [rebuiltAttrs_eq, dget_map_kv rebuilt]
  cases dget a attrs with
  | none => simp only [Option.map_none, Option.getD_none, rebuilt]
  | some v => rfl

theorem dget_putAttr {a b : Str} {w : Val Cls F} {attrs : List (Str × Val Cls F)} :
    dget b (putAttr a w attrs) = if b = a then (dget b attrs).map (fun _ => w) else dget b attrs := by
  induction attrs with
  | nil => simp [putAttr, dget]
  | cons p r ih =>
    obtain ⟨k, v⟩ := p
    have ih : dget b (r.map fun p => if p.1 = a then (a, w) else p) =
      if b = a then (dget b r).map (fun _ => w) else dget b r := ih
    simp only [putAttr, List.map_cons]
    by_cases hk : k = a
    · subst hk
      simp only [if_true, dget]
      by_cases hb : k = b
      · subst hb; simp
      · have hb' : ¬ b = k := fun h => hb h.symm
        simp only [if_neg hb, ih, if_neg hb']
    · simp only [if_neg hk, dget]
      by_cases hb : k = b
      · subst hb; simp [hk]
      · simp only [if_neg hb, ih]

theorem keys_putAttr {a : Str} {w : Val Cls F} {attrs : List (Str × Val Cls F)} :
    (putAttr a w attrs).map Prod.fst = attrs.map Prod.fst := by
  simp only [putAttr, List.map_map]
  apply List.map_congr_left
  intro p _
  simp only [Function.comp_apply]
  split
  · rename_i h; exact h.symm
  · rfl

theorem keys_rebuilt {c : Cls} {g : Option (Geo F)} {attrs : List (Str × Val Cls F)} :
    (fromGeometry c g (rebuiltAttrs attrs)).map Prod.fst = attrs.map Prod.fst := by
  have : (rebuiltAttrs attrs).map Prod.fst = attrs.map Prod.fst := by
    rw [rebuiltAttrs_eq, List.map_map]; rfl
  simp only [fromGeometry]
  split
  · rw [keys_putAttr, this]
  · split
    · rw [keys_putAttr, keys_putAttr, this]
    · exact this

/-- The attributes that come from the geometry. -/
def ofGeometry (c : Cls) : List Str :=
  if c = .LineString ∨ c = .LinearRing then [s% "kml_coordinates"]
  else if c = .Polygon then [s% "outer_boundary", s% "inner_boundaries"] else []

theorem attr_fromGeometry {c : Cls} {g : Option (Geo F)} {attrs : List (Str × Val Cls F)} {a : Str}
    (h : a ∉ ofGeometry c) : attr a (fromGeometry c g attrs) = attr a attrs := by
  simp only [ofGeometry] at h
  simp only [fromGeometry]
  split
  · rename_i hc
    rw [if_pos hc] at h
    simp only [List.mem_singleton] at h
    simp only [attr, dget_putAttr, if_neg h]
  · rename_i hc
    rw [if_neg hc] at h
    split
    · rename_i hp
      rw [if_pos hp] at h
      simp only [List.mem_cons, List.not_mem_nil, or_false, not_or] at h
      simp only [attr, dget_putAttr, if_neg h.1, if_neg h.2]
    · rfl

theorem attr_coords {c : Cls} (hc : c = .LineString ∨ c = .LinearRing) {g : Option (Geo F)}
    {attrs : List (Str × Val Cls F)} (h : s% "kml_coordinates" ∈ attrs.map Prod.fst) :
    attr (s% "kml_coordinates") (fromGeometry c g attrs) = coordsArg g := by
  simp only [fromGeometry, if_pos hc, attr, dget_putAttr, if_true]
  cases hd : dget (s% "kml_coordinates") attrs with
  | none => exact absurd h (dget_eq_none.mp hd)
  | some v => rfl

theorem attr_outer {g : Option (Geo F)}
    {attrs : List (Str × Val Cls F)} (h : s% "outer_boundary" ∈ attrs.map Prod.fst) :
    attr (s% "outer_boundary") (fromGeometry .Polygon g attrs) = outerArg g := by
  have : ¬ (s% "outer_boundary" : Str) = s% "inner_boundaries" := by decide
  simp only [fromGeometry, reduceCtorEq, or_self, if_false, if_true, attr, dget_putAttr, if_neg this]
  cases hd : dget (s% "outer_boundary") attrs with
  | none => exact absurd h (dget_eq_none.mp hd)
  | some v => rfl

theorem attr_inner {g : Option (Geo F)}
    {attrs : List (Str × Val Cls F)} (h : s% "inner_boundaries" ∈ attrs.map Prod.fst) :
    attr (s% "inner_boundaries") (fromGeometry .Polygon g attrs) = .list (innerArg g) := by
  have : ¬ (s% "inner_boundaries" : Str) = s% "outer_boundary" := by decide
  simp only [fromGeometry, reduceCtorEq, or_self, if_false, if_true, attr, dget_putAttr, if_neg this]
  cases hd : dget (s% "inner_boundaries") attrs with
  | none => exact absurd h (dget_eq_none.mp hd)
  | some v => rfl

/-! ## Truth value and geometry -/

theorem geometry_ringObj {l : List (Pt F)} (h : NormalRing l) :
    geometry fastkml (ringObj l) = .ok (some (.linearRing l)) := geometry_ring h rfl

theorem geometry_boundaryObj {c : Cls} (hc : c = .OuterBoundaryIs ∨ c = .InnerBoundaryIs)
    {l : List (Pt F)} (h : NormalRing l) :
    geometry fastkml (boundaryObj c l) = .ok (some (.linearRing l)) ∧ truthy fastkml (boundaryObj c l) = .ok true := by
  have hg := geometry_ringObj h
  have hne : (Geo.linearRing l).nonEmpty = true := by simpa [Geo.nonEmpty] using h.nonempty
  have ht : truthy fastkml (ringObj l) = .ok true := by
    have := truthy_geometry (c := .LinearRing) rfl hg
    rw [hne] at this; exact this
  have hgb : geometry fastkml (boundaryObj c l) = .ok (some (.linearRing l)) := by
    rw [boundaryObj, geometry_obj, show (fastkml.info c).geom = .boundary by rcases hc with rfl | rfl <;> rfl]
    simp only [geometry] at hg
    simp only [truthy] at ht
    simp only [geomStep, viewOf_infoAttrs]
    rw [show attrOf (s% "kml_geometry") [(s% "kml_geometry", ringObj l)] = ringObj l from rfl, ht]
    exact hg
  refine ⟨hgb, ?_⟩
  have := truthy_geometry (c := c) (by rcases hc with rfl | rfl <;> rfl) hgb
  rw [hne] at this; exact this

theorem coordsOf_rebuilt (v : Val Cls F) : coordsOf (rebuilt v) = coordsOf v := by
  cases v <;> simp only [rebuilt, coordsOf]
  rename_i c ns nss attrs
  have h1 : dget (s% "coords") (fromGeometry c (geometryOf (.obj c ns nss attrs)) (rebuiltAttrs attrs)) =
      (dget (s% "coords") attrs).map rebuilt := by
    rw [← dget_map_kv rebuilt, ← rebuiltAttrs_eq]
    have d1 : ¬ (s% "coords" : Str) = s% "kml_coordinates" := by decide
    have d2 : ¬ (s% "coords" : Str) = s% "outer_boundary" := by decide
    have d3 : ¬ (s% "coords" : Str) = s% "inner_boundaries" := by decide
    simp only [fromGeometry]
    split
    · rw [dget_putAttr, if_neg d1]
    · split
      · rw [dget_putAttr, if_neg d2, dget_putAttr, if_neg d3]
      · rfl
  rw [h1]
  cases dget (s% "coords") attrs with
  | none => rfl
  | some w => cases w <;> simp only [Option.map_some, rebuilt]

theorem geometry_info {c : Cls} (hb : (fastkml.info c).bool = .geometry) {ns ns' : Str} {nss nss' : NsMap}
    {as bs : List (Str × Val Cls F)}
    (h : geometry fastkml (.obj c ns nss as) = geometry fastkml (.obj c ns' nss' bs)) :
    info fastkml (.obj c ns nss as) = info fastkml (.obj c ns' nss' bs) := by
  rw [geometry_obj, geometry_obj] at h
  simp only [info, infoStep, hb, boolStep, h]

theorem mem_names {c : Cls} {ns : Str} {nss : NsMap} {attrs : List (Str × Val Cls F)} {a : Str}
    (h : Regular c ns nss attrs) (ha : a ∈ names c) : a ∈ (rebuiltAttrs attrs).map Prod.fst := by
  have : (rebuiltAttrs attrs).map Prod.fst = attrs.map Prod.fst := by
    rw [rebuiltAttrs_eq, List.map_map]; rfl
  rw [this, h.layout]; exact ha

/-- The geometry of a line, ring or polygon made anew. -/
theorem geometry_again {c : Cls} (hc : c ∈ geometryClasses) {ns : Str} {nss : NsMap}
    {attrs : List (Str × Val Cls F)} (hr : AllRegular (.obj c ns nss attrs)) (hn : NoNaN (.obj c ns nss attrs)) :
    geometry fastkml (.obj c ns nss (fromGeometry c (geometryOf (.obj c ns nss attrs)) (rebuiltAttrs attrs))) =
      geometry fastkml (.obj c ns nss attrs) := by
  have hreg := hr _ _ _ _ .self
  simp only [geometryClasses, List.mem_cons, List.not_mem_nil, or_false] at hc
  rcases hc with rfl | rfl | rfl
  · have ha := attr_coords (Or.inl rfl) (g := geometryOf (.obj .LineString ns nss attrs))
      (mem_names hreg (a := s% "kml_coordinates") (by decide))
    rcases lineString_cases hr hn with hg | ⟨l, hl, hg⟩
    · rw [hg]
      simp only [geometryOf, hg, coordsArg] at ha ⊢
      rw [geometry_obj]
      have ha : attrOf _ _ = _ := ha
      show geomStep .lineString _ = _
      simp only [geomStep, viewOf_infoAttrs, ha, info, Info.plain]
    · rw [hg]
      simp only [geometryOf, hg, coordsArg] at ha ⊢
      exact geometry_line hl ha
  · have ha := attr_coords (Or.inr rfl) (g := geometryOf (.obj .LinearRing ns nss attrs))
      (mem_names hreg (a := s% "kml_coordinates") (by decide))
    rcases linearRing_cases hr hn with hg | ⟨l, hl, hg⟩
    · rw [hg]
      simp only [geometryOf, hg, coordsArg] at ha ⊢
      rw [geometry_obj]
      have ha : attrOf _ _ = _ := ha
      show geomStep .linearRing _ = _
      simp only [geomStep, viewOf_infoAttrs, ha, info, Info.plain]
    · rw [hg]
      simp only [geometryOf, hg, coordsArg] at ha ⊢
      exact geometry_ring hl ha
  · have ha := attr_outer (g := geometryOf (.obj .Polygon ns nss attrs))
      (mem_names hreg (a := s% "outer_boundary") (by decide))
    have hi := attr_inner (g := geometryOf (.obj .Polygon ns nss attrs))
      (mem_names hreg (a := s% "inner_boundaries") (by decide))
    rcases polygon_cases hr hn with hg | ⟨s, hs, h1, h2, hg⟩
    · rw [hg]
      simp only [geometryOf, hg, outerArg] at ha ⊢
      rw [geometry_obj]
      have ha : attrOf _ _ = _ := ha
      show geomStep .polygon _ = _
      simp only [geomStep, viewOf_infoAttrs, ha, info, Info.plain]
    · rw [hg]
      simp only [geometryOf, hg, outerArg, innerArg] at ha hi ⊢
      rw [geometry_obj]
      have ha : attrOf _ _ = _ := ha
      have hi : attrOf _ _ = _ := hi
      obtain ⟨g1, g2⟩ := geometry_boundaryObj (c := .OuterBoundaryIs) (Or.inl rfl) h1
      have hgs : someGeoms ((hs.map (boundaryObj .InnerBoundaryIs)).map (info fastkml)) =
          .ok (hs.map .linearRing) := by
        apply someGeoms_all
        simp only [List.map_map]
        apply List.map_congr_left
        intro h hh
        exact (geometry_boundaryObj (c := .InnerBoundaryIs) (Or.inr rfl) (h2 h hh)).1
      show geomStep .polygon _ = _
      simp only [geometry] at g1
      simp only [truthy] at g2
      simp only [geomStep, viewOf_infoAttrs, ha, hi, g1, g2, mkRing_normal h1, liftGeo, infoElems_list,
        hgs, ringsOf_normal h2]

/-- A polygon has a geometry if its outer boundary is not empty. -/
theorem polygon_truthy {ns : Str} {nss : NsMap} {attrs : List (Str × Val Cls F)} {g : Option (Geo F)}
    (h : geometry fastkml (.obj .Polygon ns nss attrs) = .ok g) :
    truthy fastkml (.obj .Polygon ns nss attrs) = .ok g.isSome := by
  rw [geometry_obj] at h
  have h : geomStep .polygon _ = _ := h
  rw [truthy, info_obj]
  simp only [infoStep, show (fastkml.info .Polygon).bool = .allTruthy [s% "outer_boundary"] from rfl]
  simp only [geomStep] at h
  simp only [boolStep, List.map_cons, List.map_nil, allE]
  split at h
  · cases h
  · rename_i ht
    cases h; rfl
  · rename_i ht
    split at h
    · cases h
    · split at h
      · cases h
      · cases h
      · split at h
        · cases h
        · cases h; rfl
    · cases h

/-- The truth value and the geometry do not change. -/
theorem info_rebuilt (v : Val Cls F) : AllRegular v → NoNaN v → info fastkml (rebuilt v) = info fastkml v := by
  induction v using Val.objInd with
  | hother v hv =>
    intro _ _
    cases v <;> first | exact absurd rfl (hv _ _ _ _) | simp only [rebuilt, info, rebuiltList_eq, List.isEmpty_map]
  | hobj c ns nss attrs ih1 ih2 =>
    intro hr hn
    have hreg := hr _ _ _ _ .self
    simp only [rebuilt]
    by_cases hc : c ∈ geometryClasses
    · have hg := geometry_again hc hr hn
      by_cases hp : c = .Polygon
      · subst hp
        obtain ⟨g, hk⟩ : ∃ g, geometry fastkml (.obj .Polygon ns nss attrs) = .ok g := by
          rcases polygon_cases hr hn with hk | ⟨_, _, _, _, hk⟩ <;> exact ⟨_, hk⟩
        have e1 := polygon_truthy hk
        have e2 := polygon_truthy (hg.trans hk)
        have hext : ∀ i j : Info F, i.truthy = j.truthy → i.geom = j.geom → i = j := by
          rintro ⟨_, _⟩ ⟨_, _⟩ rfl rfl; rfl
        exact hext _ _ (e2.trans e1.symm) hg
      · refine geometry_info ?_ hg
        simp only [geometryClasses, List.mem_cons, List.not_mem_nil, or_false, hp] at hc
        rcases hc with rfl | rfl <;> rfl
    · have hf : fromGeometry c (geometryOf (.obj c ns nss attrs)) (rebuiltAttrs attrs) = rebuiltAttrs attrs := by
        simp only [geometryClasses, List.mem_cons, List.not_mem_nil, or_false, not_or] at hc
        simp only [fromGeometry, hc.1, hc.2.1, hc.2.2, or_self, if_false]
      rw [hf]
      have hsame : ∀ a, AlikeView (viewOf a (infoAttrs fastkml (rebuiltAttrs attrs))) (viewOf a (infoAttrs fastkml attrs)) := by
        intro a
        have ha : attrOf a (rebuiltAttrs attrs) = rebuilt (attrOf a attrs) := attr_rebuilt a attrs
        rw [viewOf_infoAttrs, viewOf_infoAttrs, ha]
        by_cases hnone : attrOf a attrs = .none
        · rw [hnone]
          refine ⟨by simp only [rebuilt], by simp only [rebuilt], by simp only [rebuilt], by simp only [rebuilt], by simp only [rebuilt], ?_⟩
          intro l; simp only [rebuilt]
        · have hm := attrOf_mem (rfl : attrOf a attrs = attrOf a attrs) hnone
          refine ⟨ih1 a _ hm (hr.attr hm) (hn.attr hm), ?_, ?_, coordsOf_rebuilt _, ?_, ?_⟩
          · cases hv : attrOf a attrs <;> simp only [rebuilt, infoElems]
            rename_i l
            rw [hv] at hm
            rw [rebuiltList_eq, infoList_eq, infoList_eq, List.map_map]
            apply List.map_congr_left
            intro w hw
            exact ih2 a l hm w hw ((hr.attr hm).member hw) ((hn.attr hm).member hw)
          · cases hv : attrOf a attrs <;> simp only [rebuilt, Val.notNone]
          · cases hv : attrOf a attrs <;> simp only [rebuilt, numOf]
          · intro l
            cases hv : attrOf a attrs <;> simp only [rebuilt, reduceCtorEq]
      simp only [info, infoStep]
      rw [geomStep_alike hsame, boolStep_alike hsame]

end Verif
