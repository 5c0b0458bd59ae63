import Verif.Lemmas.Exact
import Verif.Lemmas.Canonical
import Verif.Spec.Rounding

/-!
# Changing the numbers of coordinates does not change emptiness
-/

set_option linter.unusedSectionVars false
set_option linter.unusedSimpArgs false

namespace Verif

open Spec

variable {C F : Type} [DecidableEq C] [PyExt F]

theorem mapCoordsAttrs_eq (r : F → F) (attrs : List (Str × Val C F)) :
    mapCoordsAttrs r attrs = attrs.map fun p => (p.1, mapCoords r p.2) := by
  induction attrs with
  | nil => simp [mapCoordsAttrs]
  | cons p t ih => obtain ⟨a, v⟩ := p; simp only [mapCoordsAttrs, ih, List.map_cons]

theorem mapCoordsList_eq (r : F → F) (l : List (Val C F)) : mapCoordsList r l = l.map (mapCoords r) := by
  induction l with
  | nil => simp [mapCoordsList]
  | cons v t ih => simp only [mapCoordsList, ih, List.map_cons]

theorem mapCoords_obj (r : F → F) (c : C) (ns : Str) (nss : NsMap) (attrs : List (Str × Val C F)) :
    mapCoords r (.obj c ns nss attrs) = .obj c ns nss (attrs.map fun p => (p.1, mapCoords r p.2)) := by
  rw [mapCoords, mapCoordsAttrs_eq]

theorem mapCoords_list (r : F → F) (l : List (Val C F)) : mapCoords r (.list l) = .list (l.map (mapCoords r)) := by
  rw [mapCoords, mapCoordsList_eq]

theorem dget_mapCoords (r : F → F) (a : Str) (attrs : List (Str × Val C F)) :
    dget a (attrs.map fun p => (p.1, mapCoords r p.2)) = (dget a attrs).map (mapCoords r) :=
  dget_map_kv (mapCoords r) a attrs

theorem attrOf_mapCoords (r : F → F) (a : Str) (attrs : List (Str × Val C F)) :
    attrOf a (attrs.map fun p => (p.1, mapCoords r p.2)) = mapCoords r (attrOf a attrs) := by
  unfold attrOf
  rw [dget_mapCoords]
  cases dget a attrs with
  | none => simp [mapCoords]
  | some v => rfl

theorem mapCoords_isInst (r : F → F) (cs : List (PyType C)) (v : Val C F) : isInst cs (mapCoords r v) = isInst cs v := by
  cases v <;> simp [mapCoords, isInst]

/-! ## pygeoif -/

/-- The exception for coordinates with these numbers of components. -/
def lineErr : Option Nat → List Nat → Option GeoErr
  | _, [] => none
  | last, n :: ns =>
    if last ≠ none ∧ last ≠ some n then some .dimension
    else if n = 2 ∨ n = 3 then lineErr (some n) ns else some .type

theorem setGeoms_eq (last : Option Nat) (l : List (Pt F)) :
    setGeoms last l = match lineErr last (l.map List.length) with
      | some e => .error e
      | none => .ok (l.filter fun p => !ptEmpty p) := by
  induction l generalizing last with
  | nil => rfl
  | cons p l ih =>
    simp only [setGeoms, List.map_cons, lineErr]
    by_cases h : last ≠ none ∧ last ≠ some p.length
    · simp only [if_pos h]
    · simp only [if_neg h, mkPoint]
      by_cases h2 : p.length = 2 ∨ p.length = 3
      · simp only [if_pos h2, ih]
        cases lineErr (some p.length) (l.map List.length) with
        | some e => rfl
        | none => cases hp : ptEmpty p <;> simp [hp]
      · simp only [if_neg h2]

theorem ptBeq_length {p q : Pt F} (h : ptBeq p q = true) : p.length = q.length := by
  induction p generalizing q with
  | nil => cases q <;> simp [ptBeq] at h ⊢
  | cons a p ih => cases q with
    | nil => simp [ptBeq] at h
    | cons b q => simp [ptBeq] at h; simp [ih h.2]

theorem lineErr_dedupeFrom {p : Pt F} (hp : p.length = 2 ∨ p.length = 3) (l : List (Pt F)) :
    lineErr (some p.length) ((dedupeFrom p l).map List.length) = lineErr (some p.length) (l.map List.length) := by
  induction l generalizing p with
  | nil => rfl
  | cons q l ih =>
    simp only [dedupeFrom]
    by_cases h : ptBeq p q = true
    · rw [if_pos h, ih hp, List.map_cons, lineErr, ptBeq_length h]
      have := ptBeq_length h
      rw [this] at hp
      simp [hp]
    · rw [if_neg h, List.map_cons, List.map_cons, lineErr, lineErr]
      by_cases h2 : (some p.length ≠ none ∧ some p.length ≠ some q.length)
      · rw [if_pos h2, if_pos h2]
      · rw [if_neg h2, if_neg h2]
        by_cases h3 : q.length = 2 ∨ q.length = 3
        · rw [if_pos h3, if_pos h3, ih h3]
        · rw [if_neg h3, if_neg h3]

theorem lineErr_dedupe (l : List (Pt F)) :
    lineErr none ((dedupe l).map List.length) = lineErr none (l.map List.length) := by
  cases l with
  | nil => rfl
  | cons p l =>
    simp only [dedupe, List.map_cons, lineErr]
    by_cases h : p.length = 2 ∨ p.length = 3
    · simp [h, lineErr_dedupeFrom h]
    · simp [h]

theorem mkLine_eq (l : List (Pt F)) : mkLine l = match lineErr none (l.map List.length) with
    | some e => .error e
    | none => .ok ((dedupe l).filter fun p => !ptEmpty p) := by
  unfold mkLine
  rw [setGeoms_eq, lineErr_dedupe]

variable [LawfulExt F]

theorem ptBeq_empty {p q : Pt F} (h : ptBeq p q = true) : ptEmpty p = false := by
  induction p generalizing q with
  | nil => rfl
  | cons a p ih => cases q with
    | nil => simp [ptBeq] at h
    | cons b q =>
      simp only [ptBeq, Bool.and_eq_true] at h
      have h1 : PyExt.isNaN a = false := by
        cases hn : PyExt.isNaN a with
        | false => rfl
        | true => rw [LawfulExt.beq_nan a b hn] at h; simp at h
      have := ih h.2
      simp only [ptEmpty, List.any_cons, h1, Bool.false_or] at this ⊢
      exact this

theorem dedupeFrom_any {p : Pt F} (l : List (Pt F)) (hp : ptEmpty p = true) :
    (dedupeFrom p l).any (fun p => !ptEmpty p) = l.any fun p => !ptEmpty p := by
  have key : ∀ (l : List (Pt F)) (p : Pt F), (ptEmpty p = false ∨
      (dedupeFrom p l).any (fun p => !ptEmpty p) = l.any fun p => !ptEmpty p) := by
    intro l
    induction l with
    | nil => intro p; exact Or.inr rfl
    | cons q l ih =>
      intro p
      by_cases h : ptBeq p q = true
      · exact Or.inl (ptBeq_empty h)
      · right
        rw [dedupeFrom, if_neg h, List.any_cons, List.any_cons]
        rcases ih q with h2 | h2
        · simp [h2]
        · rw [h2]
  rcases key l p with h | h
  · rw [hp] at h; cases h
  · exact h

theorem dedupe_any (l : List (Pt F)) : (dedupe l).any (fun p => !ptEmpty p) = l.any fun p => !ptEmpty p := by
  cases l with
  | nil => rfl
  | cons p l =>
    simp only [dedupe, List.any_cons]
    cases hp : ptEmpty p with
    | false => simp
    | true => rw [dedupeFrom_any l hp]

theorem filter_isEmpty {α : Type} (p : α → Bool) (l : List α) : (l.filter p).isEmpty = !l.any p := by
  induction l with
  | nil => rfl
  | cons a l ih => cases h : p a <;> simp [h, ih]

/-- A line is empty if all its points are. -/
theorem mkLine_isEmpty {l m : List (Pt F)} (h : mkLine l = .ok m) : m.isEmpty = !l.any fun p => !ptEmpty p := by
  rw [mkLine_eq] at h
  split at h
  · cases h
  · cases h
    rw [filter_isEmpty, dedupe_any]

omit [LawfulExt F] in
theorem closeRing_isEmpty (l : List (Pt F)) : (closeRing l).isEmpty = l.isEmpty := by
  cases l with
  | nil => rfl
  | cons p l =>
    simp only [closeRing]
    split
    · rfl
    · split <;> rfl

/-! ## Similar geometries -/

/-- The kind of a geometry. -/
def Geo.kind : Geo F → Nat
  | .point _ => 0 | .lineString _ => 1 | .linearRing _ => 2 | .polygon _ _ => 3
  | .multiPoint _ => 4 | .multiLineString _ => 5 | .multiPolygon _ => 6 | .collection _ => 7

/-- All points of a ring have the same dimension and no NaN. -/
def Geo.ringOk : Geo F → Prop
  | .linearRing l => ∃ n, (n = 2 ∨ n = 3) ∧ ∀ p ∈ l, p.length = n ∧ ptEmpty p = false
  | _ => True

/-- Same kind, same emptiness. -/
structure GeoSim (g g' : Geo F) : Prop where
  kind : g.kind = g'.kind
  nonEmpty : g.nonEmpty = g'.nonEmpty
  left : g.ringOk
  right : g'.ringOk

/-- The same exception, or both `None`, or similar. -/
def GeomSim : Except Err (Option (Geo F)) → Except Err (Option (Geo F)) → Prop
  | .error x, .error y => x = y
  | .ok none, .ok none => True
  | .ok (some g), .ok (some g') => GeoSim g g'
  | _, _ => False

/-- Same truth value, similar geometry. -/
structure InfoSim (i i' : Info F) : Prop where
  truthy : i.truthy = i'.truthy
  geom : GeomSim i.geom i'.geom

theorem infoSim_plain (b : Bool) : InfoSim (Info.plain b : Info F) (Info.plain b) := ⟨rfl, rfl⟩

section
variable {r : F → F} (hr : ∀ f, PyExt.isNaN (r f) = PyExt.isNaN f)
include hr

omit [LawfulExt F] in
theorem ptEmpty_map (p : Pt F) : ptEmpty (p.map r) = ptEmpty p := by
  unfold ptEmpty
  rw [List.any_map]
  congr 1
  funext f
  exact hr f

omit [LawfulExt F] in
theorem lengths_map (l : List (Pt F)) : (l.map fun c => c.map r).map List.length = l.map List.length := by
  rw [List.map_map]
  congr 1
  funext c
  simp

omit [LawfulExt F] in
theorem any_map (l : List (Pt F)) : (l.map fun c => c.map r).any (fun p => !ptEmpty p) = l.any fun p => !ptEmpty p := by
  rw [List.any_map]
  congr 1
  funext p
  simp [ptEmpty_map hr]

theorem mkLine_sim (l : List (Pt F)) :
    (∃ e, mkLine l = .error e ∧ mkLine (l.map fun c => c.map r) = .error e) ∨
    (∃ m m', mkLine l = .ok m ∧ mkLine (l.map fun c => c.map r) = .ok m' ∧ m.isEmpty = m'.isEmpty) := by
  cases h : lineErr none (l.map List.length) with
  | some e =>
    left
    refine ⟨e, ?_, ?_⟩
    · rw [mkLine_eq, h]
    · rw [mkLine_eq, lengths_map hr, h]
  | none =>
    right
    have h1 : mkLine l = .ok ((dedupe l).filter fun p => !ptEmpty p) := by rw [mkLine_eq, h]
    have h2 : mkLine (l.map fun c => c.map r) = .ok ((dedupe (l.map fun c => c.map r)).filter fun p => !ptEmpty p) := by
      rw [mkLine_eq, lengths_map hr, h]
    refine ⟨_, _, h1, h2, ?_⟩
    rw [mkLine_isEmpty h1, mkLine_isEmpty h2, any_map hr]

omit hr in
theorem mkLine_clean {l m : List (Pt F)} (h : mkLine l = .ok m) :
    ∃ n, (n = 2 ∨ n = 3) ∧ ∀ p ∈ m, p.length = n ∧ ptEmpty p = false := by
  have h' := h
  unfold mkLine at h'
  obtain ⟨n, hn, _, h2⟩ := setGeoms_dims h'
  refine ⟨n, hn, fun p hp => ⟨h2 p hp, ?_⟩⟩
  rw [mkLine_eq] at h
  split at h
  · cases h
  · cases h
    simpa using (List.mem_filter.mp hp).2

theorem mkRing_sim (l : List (Pt F)) :
    (∃ e, mkRing l = .error e ∧ mkRing (l.map fun c => c.map r) = .error e) ∨
    (∃ m m', mkRing l = .ok m ∧ mkRing (l.map fun c => c.map r) = .ok m' ∧
      GeoSim (.linearRing m) (.linearRing m')) := by
  unfold mkRing
  rcases mkLine_sim hr l with ⟨e, h1, h2⟩ | ⟨m, m', h1, h2, h3⟩
  · left; exact ⟨e, by rw [h1], by rw [h2]⟩
  · right
    refine ⟨closeRing m, closeRing m', by rw [h1], by rw [h2], rfl, ?_, ?_, ?_⟩
    · simp only [Geo.nonEmpty, closeRing_isEmpty, h3]
    · obtain ⟨n, hn, h⟩ := mkLine_clean h1
      exact ⟨n, hn, fun p hp => h p (closeRing_mem hp)⟩
    · obtain ⟨n, hn, h⟩ := mkLine_clean h2
      exact ⟨n, hn, fun p hp => h p (closeRing_mem hp)⟩

end

/-- A ring made again from a ring. -/
theorem mkRing_clean {l : List (Pt F)} (h : (Geo.linearRing l).ringOk) :
    ∃ m, mkRing l = .ok m ∧ m.isEmpty = l.isEmpty := by
  obtain ⟨n, hn, h⟩ := h
  obtain ⟨m, hm⟩ := setGeoms_ok (l := dedupe l) hn (fun p hp => (h p (mem_dedupe hp)).1) (last := none) (Or.inl rfl)
  have hm' : mkLine l = .ok m := hm
  refine ⟨closeRing m, by rw [mkRing, hm'], ?_⟩
  rw [closeRing_isEmpty, mkLine_isEmpty hm']
  cases l with
  | nil => rfl
  | cons p l => simp [(h p (by simp)).2]

theorem someGeoms_sim {l l' : List (Info F)} (h : All2 InfoSim l l') :
    (∃ e, someGeoms l = .error e ∧ someGeoms l' = .error e) ∨
    (∃ gs gs', someGeoms l = .ok gs ∧ someGeoms l' = .ok gs' ∧ All2 GeoSim gs gs') := by
  induction h with
  | nil => exact Or.inr ⟨[], [], rfl, rfl, .nil⟩
  | @cons i i' l l' h1 _ ih =>
    have hg := h1.geom
    simp only [someGeoms]
    generalize i.geom = g at hg
    generalize i'.geom = g' at hg
    rcases g with e | (_ | g) <;> rcases g' with e' | (_ | g') <;> simp only [GeomSim] at hg
    · subst hg; exact Or.inl ⟨e, rfl, rfl⟩
    · exact ih
    · rcases ih with ⟨e, h2, h3⟩ | ⟨gs, gs', h2, h3, h4⟩
      · left; exact ⟨e, by simp only [h2], by simp only [h3]⟩
      · right; exact ⟨g :: gs, g' :: gs', by simp only [h2], by simp only [h3], .cons hg h4⟩

theorem truthyGeoms_sim {l l' : List (Info F)} (h : All2 InfoSim l l') :
    (∃ e, truthyGeoms l = .error e ∧ truthyGeoms l' = .error e) ∨
    (∃ gs gs', truthyGeoms l = .ok gs ∧ truthyGeoms l' = .ok gs' ∧ All2 GeoSim gs gs') := by
  unfold truthyGeoms
  rcases someGeoms_sim h with ⟨e, h2, h3⟩ | ⟨gs, gs', h2, h3, h4⟩
  · left; exact ⟨e, by simp only [h2], by simp only [h3]⟩
  · right; exact ⟨_, _, by rw [h2], by rw [h3], h4.filter fun a b hab => hab.nonEmpty⟩

theorem ringsOf_sim {gs gs' : List (Geo F)} (h : All2 GeoSim gs gs') :
    (∃ e, ringsOf gs = .error e ∧ ringsOf gs' = .error e) ∨
    (∃ rs rs', ringsOf gs = .ok rs ∧ ringsOf gs' = .ok rs') := by
  induction h with
  | nil => exact Or.inr ⟨[], [], rfl, rfl⟩
  | @cons g g' gs gs' h1 _ ih =>
    have hk := h1.kind
    cases g <;> cases g' <;> simp [Geo.kind] at hk <;>
      first
      | exact Or.inl ⟨_, rfl, rfl⟩
      | (rename_i l l'
         obtain ⟨m, hm, _⟩ := mkRing_clean h1.left
         obtain ⟨m', hm', _⟩ := mkRing_clean h1.right
         simp only [ringsOf, hm, hm', liftGeo]
         rcases ih with ⟨e, h2, h3⟩ | ⟨rs, rs', h2, h3⟩
         · left; exact ⟨e, by rw [h2], by rw [h3]⟩
         · right; exact ⟨_, _, by rw [h2], by rw [h3]⟩)

theorem allPoints_sim {gs gs' : List (Geo F)} (h : All2 GeoSim gs gs') :
    (allPoints gs).isSome = (allPoints gs').isSome := by
  induction h with
  | nil => rfl
  | @cons g g' gs gs' h1 _ ih =>
    have hk := h1.kind
    cases g <;> cases g' <;> simp [Geo.kind] at hk <;> simp [allPoints, ih]

theorem allLines_sim {gs gs' : List (Geo F)} (h : All2 GeoSim gs gs') :
    (allLines gs).isSome = (allLines gs').isSome := by
  induction h with
  | nil => rfl
  | @cons g g' gs gs' h1 _ ih =>
    have hk := h1.kind
    cases g <;> cases g' <;> simp [Geo.kind] at hk <;> simp [allLines, ih]

theorem allPolygons_sim {gs gs' : List (Geo F)} (h : All2 GeoSim gs gs') :
    (allPolygons gs).isSome = (allPolygons gs').isSome := by
  induction h with
  | nil => rfl
  | @cons g g' gs gs' h1 _ ih =>
    have hk := h1.kind
    cases g <;> cases g' <;> simp [Geo.kind] at hk <;> simp [allPolygons, ih]

omit [LawfulExt F]

theorem allPoints_any {gs : List (Geo F)} {ps : List (Pt F)} (h : allPoints gs = some ps) :
    (ps.any fun p => !ptEmpty p) = gs.any Geo.nonEmpty := by
  induction gs generalizing ps with
  | nil => simp [allPoints] at h; subst h; rfl
  | cons g gs ih =>
    cases g <;> simp [allPoints] at h
    obtain ⟨qs, hq, rfl⟩ := h
    simp [ih hq, Geo.nonEmpty]

theorem allLines_any {gs : List (Geo F)} {ls : List (List (Pt F))} (h : allLines gs = some ls) :
    (ls.any fun l => !l.isEmpty) = gs.any Geo.nonEmpty := by
  induction gs generalizing ls with
  | nil => simp [allLines] at h; subst h; rfl
  | cons g gs ih =>
    cases g <;> simp [allLines] at h
    obtain ⟨qs, hq, rfl⟩ := h
    simp [ih hq, Geo.nonEmpty]

theorem allPolygons_any {gs : List (Geo F)} {ls : List (List (Pt F) × List (List (Pt F)))} (h : allPolygons gs = some ls) :
    (ls.any fun p => !p.1.isEmpty) = gs.any Geo.nonEmpty := by
  induction gs generalizing ls with
  | nil => simp [allPolygons] at h; subst h; rfl
  | cons g gs ih =>
    cases g <;> simp [allPolygons] at h
    obtain ⟨qs, hq, rfl⟩ := h
    simp [ih hq, Geo.nonEmpty]

theorem any_sim {gs gs' : List (Geo F)} (h : All2 GeoSim gs gs') : gs.any Geo.nonEmpty = gs'.any Geo.nonEmpty := by
  induction h with
  | nil => rfl
  | @cons g g' gs gs' h1 _ ih => simp [h1.nonEmpty, ih]

theorem createMulti_sim [LawfulExt F] {gs gs' : List (Geo F)} (h : All2 GeoSim gs gs') :
    GeomSim (.ok (createMulti gs)) (.ok (createMulti gs')) := by
  cases h with
  | nil => trivial
  | @cons g g' gs gs' h1 h2 =>
    have h := All2.cons h1 h2
    have hany := any_sim h
    simp only [createMulti]
    have e1 := allPoints_sim h
    have e2 := allLines_sim h
    have e3 := allPolygons_sim h
    generalize ha : allPoints (g :: gs) = a at *
    generalize ha' : allPoints (g' :: gs') = a' at *
    generalize hb : allLines (g :: gs) = b at *
    generalize hb' : allLines (g' :: gs') = b' at *
    generalize hc : allPolygons (g :: gs) = c at *
    generalize hc' : allPolygons (g' :: gs') = c' at *
    cases a <;> cases a' <;> simp at e1
    · cases b <;> cases b' <;> simp at e2
      · cases c <;> cases c' <;> simp at e3
        · refine ⟨rfl, ?_, trivial, trivial⟩
          simp only [Geo.nonEmpty, filter_isEmpty, Bool.not_not, hany]
        · refine ⟨rfl, ?_, trivial, trivial⟩
          simp only [Geo.nonEmpty]
          rw [allPolygons_any hc, allPolygons_any hc', hany]
      · refine ⟨rfl, ?_, trivial, trivial⟩
        simp only [Geo.nonEmpty]
        rw [allLines_any hb, allLines_any hb', hany]
    · refine ⟨rfl, ?_, trivial, trivial⟩
      simp only [Geo.nonEmpty]
      rw [allPoints_any ha, allPoints_any ha', hany]


/-! ## Views -/

/-- The view of an attribute and of its changed value. -/
structure ViewSim (r : F → F) (w w' : View C F) : Prop where
  v : w'.v = mapCoords r w.v
  info : InfoSim w.info w'.info
  elems : All2 InfoSim w.elems w'.elems

theorem coordsOf_map (r : F → F) (v : Val C F) :
    coordsOf (mapCoords r v) = match coordsOf v with
      | .error e => .error e
      | .ok l => .ok (l.map fun c => c.map r) := by
  cases v with
  | obj c ns nss attrs =>
    rw [mapCoords_obj]
    simp only [coordsOf, dget_mapCoords]
    cases dget (s% "coords") attrs with
    | none => rfl
    | some w => cases w <;> simp [mapCoords]
  | _ => simp [mapCoords, coordsOf]

theorem numOf_map (r : F → F) (v : Val C F) : numOf (mapCoords r v) = numOf v := by
  cases v <;> simp [mapCoords, numOf]

theorem notNone_map (r : F → F) (v : Val C F) : (mapCoords r v).notNone = v.notNone := by
  cases v <;> simp [mapCoords, Val.notNone]

theorem geomSim_same_point (p : Pt F) : GeomSim (.ok (some (.point p))) (.ok (some (.point p))) :=
  ⟨rfl, rfl, trivial, trivial⟩

section
variable [LawfulExt F] {r : F → F} (hr : ∀ f, PyExt.isNaN (r f) = PyExt.isNaN f)
include hr

omit [LawfulExt F] in
theorem pointGeom_sim (l : List (Pt F)) :
    GeomSim (.ok (pointGeom l)) (.ok (pointGeom (l.map fun c => c.map r))) := by
  cases l with
  | nil => trivial
  | cons p l =>
    simp only [List.map_cons, pointGeom, mkPoint, List.length_map]
    by_cases h : p.length = 2 ∨ p.length = 3
    · simp only [if_pos h]
      exact ⟨rfl, by simp [Geo.nonEmpty, ptEmpty_map hr], trivial, trivial⟩
    · simp only [if_neg h]
      trivial

/-- The rule of `geometry` on similar attributes. -/
theorem geomStep_sim {k : GeomKind} {as as' : List (Str × View C F)}
    (h : ∀ a, ViewSim r (viewOf a as) (viewOf a as')) : GeomSim (geomStep k as) (geomStep k as') := by
  cases k with
  | none => rfl
  | point =>
    simp only [geomStep]
    have hv := h (s% "kml_coordinates")
    rw [← hv.info.truthy, hv.v, coordsOf_map]
    split
    · rfl
    · trivial
    · cases coordsOf (viewOf (s% "kml_coordinates") as).v with
      | error e => rfl
      | ok l => exact pointGeom_sim hr l
  | lineString =>
    simp only [geomStep]
    have hv := h (s% "kml_coordinates")
    rw [← hv.info.truthy, hv.v, coordsOf_map]
    split
    · rfl
    · trivial
    · cases coordsOf (viewOf (s% "kml_coordinates") as).v with
      | error e => rfl
      | ok l =>
        rcases mkLine_sim hr l with ⟨e, h1, h2⟩ | ⟨m, m', h1, h2, h3⟩
        · simp only [h1, h2]
          cases e
          · trivial
          · rfl
        · simp only [h1, h2]
          exact ⟨rfl, by simp [Geo.nonEmpty, h3], trivial, trivial⟩
  | linearRing =>
    simp only [geomStep]
    have hv := h (s% "kml_coordinates")
    rw [← hv.info.truthy, hv.v, coordsOf_map]
    split
    · rfl
    · trivial
    · cases coordsOf (viewOf (s% "kml_coordinates") as).v with
      | error e => rfl
      | ok l =>
        rcases mkRing_sim hr l with ⟨e, h1, h2⟩ | ⟨m, m', h1, h2, h3⟩
        · simp only [h1, h2]
          cases e
          · trivial
          · rfl
        · simp only [h1, h2]
          exact h3
  | boundary =>
    simp only [geomStep]
    have hv := h (s% "kml_geometry")
    rw [← hv.info.truthy]
    split
    · rfl
    · trivial
    · exact hv.info.geom
  | polygon =>
    simp only [geomStep]
    have hv := h (s% "outer_boundary")
    have hw := someGeoms_sim (h (s% "inner_boundaries")).elems
    rw [← hv.info.truthy]
    split
    · rfl
    · trivial
    · have hg := hv.info.geom
      generalize (viewOf (s% "outer_boundary") as).info.geom = g at hg
      generalize (viewOf (s% "outer_boundary") as').info.geom = g' at hg
      rcases g with e | (_ | g) <;> rcases g' with e' | (_ | g') <;> simp only [GeomSim] at hg
      · exact hg
      · rfl
      · have hk := hg.kind
        cases g <;> cases g' <;> simp [Geo.kind] at hk
        all_goals first | rfl | skip
        rename_i l l'
        obtain ⟨m, hm, hme⟩ := mkRing_clean hg.left
        obtain ⟨m', hm', hme'⟩ := mkRing_clean hg.right
        simp only [hm, hm', liftGeo]
        rcases hw with ⟨e, h2, h3⟩ | ⟨gs, gs', h2, h3, h4⟩
        · simp only [h2, h3]; rfl
        · simp only [h2, h3]
          rcases ringsOf_sim h4 with ⟨e, h5, h6⟩ | ⟨rs, rs', h5, h6⟩
          · simp only [h5, h6]; rfl
          · simp only [h5, h6]
            refine ⟨rfl, ?_, trivial, trivial⟩
            have := hg.nonEmpty
            simp only [Geo.nonEmpty] at this ⊢
            rw [hme, hme', this]
  | multi =>
    simp only [geomStep]
    rcases truthyGeoms_sim (h (s% "kml_geometries")).elems with ⟨e, h2, h3⟩ | ⟨gs, gs', h2, h3, h4⟩
    · simp only [h2, h3]; rfl
    · simp only [h2, h3]; exact createMulti_sim h4
  | track =>
    simp only [geomStep]
    rw [(h (s% "track_items")).v]
    cases (viewOf (s% "track_items") as).v <;> simp only [mapCoords] <;> try rfl
    rename_i l
    simp only [trackGeom]
    have : (l.map (changeRow r)).map (·.coord) = (l.map (·.coord)).map fun c => c.map r := by
      simp [List.map_map, changeRow, Function.comp_def]
    rw [this]
    rcases mkLine_sim hr (l.map (·.coord)) with ⟨e, h1, h2⟩ | ⟨m, m', h1, h2, h3⟩
    · simp only [h1, h2]
      cases e <;> rfl
    · simp only [h1, h2, liftGeo]
      exact ⟨rfl, by simp [Geo.nonEmpty, h3], trivial, trivial⟩
  | multiTrack =>
    simp only [geomStep]
    rcases truthyGeoms_sim (h (s% "tracks")).elems with ⟨e, h2, h3⟩ | ⟨gs, gs', h2, h3, h4⟩
    · simp only [h2, h3]; rfl
    · simp only [h2, h3]
      have e1 := allLines_sim h4
      cases ha : allLines gs <;> cases ha' : allLines gs' <;> simp [ha, ha'] at e1
      · rfl
      · refine ⟨rfl, ?_, trivial, trivial⟩
        simp only [Geo.nonEmpty]
        rw [allLines_any ha, allLines_any ha', any_sim h4]
  | location =>
    simp only [geomStep]
    rw [(h (s% "longitude")).v, (h (s% "latitude")).v, (h (s% "altitude")).v, numOf_map, numOf_map, numOf_map]
    split <;> first | exact geomSim_same_point _ | trivial | rfl
  | model =>
    simp only [geomStep]
    have hv := h (s% "location")
    rw [← hv.info.truthy]
    split
    · rfl
    · trivial
    · exact hv.info.geom
  | placemark =>
    simp only [geomStep]
    have hv := h (s% "kml_geometry")
    rw [hv.v, notNone_map]
    split
    · exact hv.info.geom
    · trivial

omit hr [LawfulExt F] in
theorem elems_truthy {l l' : List (Info F)} (h : All2 InfoSim l l') : l.map (·.truthy) = l'.map (·.truthy) := by
  induction h with
  | nil => rfl
  | cons h1 _ ih => simp [h1.truthy, ih]

theorem infoStep_sim {i : ClsInfo C} {as as' : List (Str × View C F)}
    (h : ∀ a, ViewSim r (viewOf a as) (viewOf a as')) : InfoSim (infoStep i as) (infoStep i as') := by
  have hg := geomStep_sim hr (k := i.geom) h
  refine ⟨?_, hg⟩
  simp only [infoStep]
  cases i.bool with
  | always => rfl
  | allTruthy l => simp only [boolStep, fun a => (h a).info.truthy]
  | anyTruthy l => simp only [boolStep, fun a => (h a).info.truthy]
  | allNotNone l => simp only [boolStep, fun a => (h a).v, notNone_map]
  | anyNotNone l => simp only [boolStep, fun a => (h a).v, notNone_map]
  | anyElem a => simp only [boolStep, elems_truthy (h a).elems]
  | geometry =>
    simp only [boolStep]
    generalize geomStep i.geom as = g at hg
    generalize geomStep i.geom as' = g' at hg
    rcases g with e | (_ | g) <;> rcases g' with e' | (_ | g') <;> simp only [GeomSim] at hg
    · subst hg; rfl
    · rfl
    · simp only [hg.nonEmpty]

end


/-! ## Truth values and geometries -/

section
variable [LawfulExt F] {r : F → F} (hr : ∀ f, PyExt.isNaN (r f) = PyExt.isNaN f)
include hr

/-- Truth value and emptiness of the geometry do not depend on the numbers in
coordinates. -/
theorem info_mapCoords (L : Lib C) (v : Val C F) : InfoSim (info L v) (info L (mapCoords r v)) := by
  induction v using Val.objInd with
  | hother v hv =>
    cases v <;> first | exact absurd rfl (hv _ _ _ _) | skip
    all_goals (simp only [mapCoords, info, List.isEmpty_map])
    all_goals first | exact infoSim_plain _ | skip
    rename_i l
    rw [mapCoordsList_eq, List.isEmpty_map]
    exact infoSim_plain _
  | hobj c ns nss attrs ih1 ih2 =>
    rw [mapCoords_obj, info_obj, info_obj]
    apply infoStep_sim hr
    intro a
    rw [viewOf_infoAttrs, viewOf_infoAttrs, attrOf_mapCoords]
    refine ⟨rfl, ?_, ?_⟩
    · by_cases h : attrOf a attrs = .none
      · rw [h]; simp only [mapCoords, info]; exact infoSim_plain _
      · exact ih1 a _ (attrOf_mem rfl h)
    · show All2 InfoSim (infoElems L (attrOf a attrs)) (infoElems L (mapCoords r (attrOf a attrs)))
      cases hv : attrOf a attrs with
      | list l =>
        rw [mapCoords_list, infoElems_list, infoElems_list, List.map_map]
        have hm := ih2 a l (attrOf_mem hv (by simp))
        generalize l = l at hm
        induction l with
        | nil => exact .nil
        | cons w l ih => exact .cons (hm w (by simp)) (ih fun x hx => hm x (by simp [hx]))
      | _ => simp only [mapCoords, infoElems]; exact .nil

theorem truthy_mapCoords (L : Lib C) (v : Val C F) : truthy L (mapCoords r v) = truthy L v :=
  (info_mapCoords hr L v).truthy.symm

theorem nonEmpty_mapCoords (L : Lib C) (v : Val C F) : nonEmpty L (mapCoords r v) = nonEmpty L v := by
  unfold nonEmpty; rw [truthy_mapCoords hr]

end

/-! ## Writing -/

theorem getValue_map (r : F → F) (v : Val C F) (vb : Verbosity) (d : Dflt) :
    getValue (mapCoords r v) vb d = mapCoords r (getValue v vb d) := by
  unfold getValue
  have h1 : eqDflt (mapCoords r v) d = eqDflt v d := by
    cases v <;> simp only [mapCoords] <;> cases d <;> simp [eqDflt]
  have h2 : mapCoords r (d.val : Val C F) = d.val := by cases d <;> simp [Dflt.val, mapCoords]
  rw [notNone_map, h1]
  split
  · exact h2.symm
  · split
    · simp [mapCoords]
    · rfl

section
variable {r : F → F} {p : Option Nat} (hf : ∀ f, fmt p (r f) = fmt p f)
include hf

theorem coordText_map (c : Pt F) : coordText p (c.map r) = coordText p c := by
  unfold coordText
  rw [List.map_map]
  congr 2
  funext f
  exact hf f

theorem coordsText_map (l : List (Pt F)) : coordsText p (l.map fun c => c.map r) = coordsText p l := by
  unfold coordsText
  rw [List.map_map]
  congr 2
  funext c
  simp only [Function.comp, List.map_map]
  congr 2
  funext f
  exact hf f

/-- The output for an attribute whose numbers are changed. -/
theorem setElement_map (it : Item C) (ns : Str) (nss : NsMap) (vb : Verbosity) {w w' : SView C F}
    (hv : w'.v = mapCoords r w.v) (ht : w'.truthy = w.truthy) (hx : w'.xml = w.xml) (he : w'.elems = w.elems)
    (el : Xml) : setElement it ns nss ⟨p, vb⟩ w' el = setElement it ns nss ⟨p, vb⟩ w el := by
  unfold setElement
  simp only [hv, getValue_map]
  generalize getValue w.v vb it.dflt = x
  cases it.set with
  | nodeText => cases x <;> simp [mapCoords, setNodeText]
  | subText => cases x <;> simp [mapCoords, setSubText]
  | attrText => cases x <;> simp [mapCoords, setAttrText]
  | subBool => cases x <;> simp [mapCoords, setSubBool]
  | subInt => cases x <;> simp [mapCoords, setSubNum, pyStr]
  | attrInt => cases x <;> simp [mapCoords, setAttrNum, pyStr]
  | subFloat => cases x <;> simp [mapCoords, setSubNum, pyStr]
  | attrFloat => cases x <;> simp [mapCoords, setAttrNum, pyStr]
  | subEnum => cases x <;> simp [mapCoords, setSubEnum]
  | attrEnum => cases x <;> simp [mapCoords, setAttrEnum]
  | subDt => cases x <;> simp [mapCoords, setSubDt]
  | subDtList => cases x <;> simp [mapCoords, setSubDtList]
  | coordsList =>
    cases x <;> simp only [mapCoords, setCoordsList]
    rename_i l
    rw [List.map_map]
    congr 3
    funext c
    simp only [Function.comp, coordText_map hf]
  | coordinates =>
    cases w.v <;> simp only [mapCoords, setCoordinates]
    rename_i l
    cases l with
    | nil => rfl
    | cons c l =>
      have := coordsText_map hf (c :: l)
      simp only [List.map_cons] at this ⊢
      simp only [setCoordinates, List.length_map, this]
  | xmlSub => simp only [setXmlSub, ht, hx]
  | xmlSubList => simp only [setXmlSubList, hv, he]; cases w.v <;> simp [mapCoords]

end

theorem itemsOf_mapCoords (r : F → F) (attrs : List (Str × Val C F)) :
    itemsOf' (attrs.map fun p => (p.1, mapCoords r p.2)) = (itemsOf' attrs).map (changeRow r) := by
  unfold itemsOf'
  rw [attrOf_mapCoords]
  cases attrOf (s% "track_items") attrs <;> simp [mapCoords]

section
variable [LawfulExt F] {r : F → F} (hr : ∀ f, PyExt.isNaN (r f) = PyExt.isNaN f)
include hr

omit [LawfulExt F] in
theorem propOf_mapCoords (sp : Special) (attrs : List (Str × Val C F)) (a : Str) :
    propOf sp (attrs.map fun p => (p.1, mapCoords r p.2)) a = mapCoords r (propOf sp attrs a) := by
  unfold propOf
  rw [itemsOf_mapCoords, attrOf_mapCoords]
  by_cases h1 : sp = .track ∧ a = s% "whens"
  · simp only [if_pos h1, mapCoords, trackWhens, List.map_map]
    rfl
  · simp only [if_neg h1]
    by_cases h2 : sp = .track ∧ a = s% "coords"
    · simp only [if_pos h2, mapCoords, trackCoords, List.filter_map, List.map_map]
      congr 1
      have : (fun i : TrackItem F => !ptEmpty i.coord) ∘ changeRow r = fun i => !ptEmpty i.coord := by
        funext i; simp [Function.comp, changeRow, ptEmpty_map hr]
      rw [this]
      rfl
    · simp only [if_neg h2]
      by_cases h3 : sp = .track ∧ a = s% "angles"
      · simp only [if_pos h3, mapCoords, trackAngles, List.filterMap_map, List.map_filterMap]
        congr 1
        congr 1
        funext i
        cases h : i.angle <;> simp [Function.comp, changeRow, h]
      · simp only [if_neg h3]

variable {p : Option Nat} (hf : ∀ f, fmt p (r f) = fmt p f)
include hf

/-- If changing the numbers does not change their texts, it does not change the
output. -/
theorem ser_mapCoords (L : Lib C) (vb : Verbosity) (v : Val C F) :
    ser L ⟨p, vb⟩ (mapCoords r v) = ser L ⟨p, vb⟩ v := by
  induction v using Val.objInd with
  | hother v hv => cases v <;> first | exact absurd rfl (hv _ _ _ _) | simp only [mapCoords, ser]
  | hobj c ns nss attrs ih1 ih2 =>
    rw [mapCoords_obj, ser_obj, ser_obj]
    have hg : ∀ a, (getattr (L.info c).special (serAttrs L ⟨p, vb⟩ (attrs.map fun q => (q.1, mapCoords r q.2))) a).v =
          mapCoords r (getattr (L.info c).special (serAttrs L ⟨p, vb⟩ attrs) a).v ∧
        (getattr (L.info c).special (serAttrs L ⟨p, vb⟩ (attrs.map fun q => (q.1, mapCoords r q.2))) a).truthy =
          (getattr (L.info c).special (serAttrs L ⟨p, vb⟩ attrs) a).truthy ∧
        (getattr (L.info c).special (serAttrs L ⟨p, vb⟩ (attrs.map fun q => (q.1, mapCoords r q.2))) a).xml =
          (getattr (L.info c).special (serAttrs L ⟨p, vb⟩ attrs) a).xml ∧
        (getattr (L.info c).special (serAttrs L ⟨p, vb⟩ (attrs.map fun q => (q.1, mapCoords r q.2))) a).elems =
          (getattr (L.info c).special (serAttrs L ⟨p, vb⟩ attrs) a).elems := by
      intro a
      rw [getattr_serAttrs, getattr_serAttrs, propOf_mapCoords hr]
      split
      · exact ⟨rfl, rfl, rfl, rfl⟩
      · rename_i hno
        have hp : propOf (L.info c).special attrs a = attrOf a attrs := by
          unfold propOf
          rw [if_neg (fun h => hno ⟨h.1, Or.inl h.2⟩), if_neg (fun h => hno ⟨h.1, Or.inr (Or.inl h.2)⟩),
            if_neg (fun h => hno ⟨h.1, Or.inr (Or.inr h.2)⟩)]
        rw [hp]
        refine ⟨rfl, truthy_mapCoords hr L _, ?_, ?_⟩
        · show ser L _ (mapCoords r (attrOf a attrs)) = ser L _ (attrOf a attrs)
          by_cases h : attrOf a attrs = .none
          · rw [h]; simp only [mapCoords]
          · exact ih1 a _ (attrOf_mem rfl h)
        · show serMembers L _ (mapCoords r (attrOf a attrs)) = serMembers L _ (attrOf a attrs)
          cases hv : attrOf a attrs with
          | list l =>
            rw [mapCoords_list, serMembers_list, serMembers_list, List.map_map]
            apply List.map_congr_left
            intro w hw
            simp only [Function.comp, truthy_mapCoords hr, ih2 a l (attrOf_mem hv (by simp)) w hw]
          | _ => simp only [mapCoords, serMembers]
    have hall : ∀ its el, setAll ns nss ⟨p, vb⟩ (L.info c).special
        (serAttrs L ⟨p, vb⟩ (attrs.map fun q => (q.1, mapCoords r q.2))) its el =
        setAll ns nss ⟨p, vb⟩ (L.info c).special (serAttrs L ⟨p, vb⟩ attrs) its el := by
      intro its
      induction its with
      | nil => intro el; rfl
      | cons it its ih =>
        intro el
        obtain ⟨h1, h2, h3, h4⟩ := hg it.attr
        simp only [setAll, setElement_map hf it ns nss vb h1 h2 h3 h4, ih]
    have hkml : ∀ el, setXmlSubList (getattr (L.info c).special
        (serAttrs L ⟨p, vb⟩ (attrs.map fun q => (q.1, mapCoords r q.2))) (s% "features")) el =
        setXmlSubList (getattr (L.info c).special (serAttrs L ⟨p, vb⟩ attrs) (s% "features")) el := by
      intro el
      obtain ⟨h1, h2, h3, h4⟩ := hg (s% "features")
      simp only [setXmlSubList, h1, h4]
      cases (getattr (L.info c).special (serAttrs L ⟨p, vb⟩ attrs) (s% "features")).v <;> simp [mapCoords]
    unfold serStep
    simp only [hall, hkml]

end

/-! ## The cycle -/

theorem rows_eq (attrs : List (Str × Val C F)) : rows attrs = itemsOf' attrs := rfl

theorem changeRow_roundTo (p : Option Nat) : (changeRow (roundTo p) : TrackItem F → TrackItem F) = rereadRow p := rfl

theorem mapCoords_scalar {P : Pt F → Bool} (r : F → F) {it : Item C} {v : Val C F} (hk : kindOk P it v = true)
    (hs : scalar it.get = true) : mapCoords r v = v := by
  revert hk hs; simp only [kindOk]; cases it.get <;> cases v <;> simp [scalar, place, mapCoords]

/-- A cycle with a precision is a cycle without, and rounding. -/
theorem cycle_round [LawfulExt F] {L : Lib C} (hR : ∀ c, ReadOk L c) (hW : ∀ c, WriteOk L c) (hC : ∀ c, CycleOk L c)
    {P : Pt F → Bool} (p : Nat) (hr : ∀ f : F, PyExt.isNaN (roundTo (some p) f) = PyExt.isNaN f) (vb : Verbosity)
    (N : NsMap) (v : Val C F) : typed L P v = true → (∃ c ns nss attrs, v = .obj c ns nss attrs) →
    cycle L ⟨some p, vb⟩ N v = roundCoords p (cycle L ⟨none, vb⟩ N v) := by
  unfold roundCoords
  induction v using Val.objInd with
  | hother v hv => rintro _ ⟨c, ns, nss, attrs, h⟩; exact absurd h (hv _ _ _ _)
  | hobj c ns nss attrs ih1 ih2 =>
    intro ht _
    have hty := typed_obj.mp ht
    rw [cycle_obj, cycle_obj, mapCoords_obj, cycleStep_eq, cycleStep_eq, List.map_append]
    congr 1
    congr 1
    · split
      · have : (rereadRow none : TrackItem F → TrackItem F) = id := funext rereadRow_none
        simp only [List.map_cons, List.map_nil, mapCoords, changeRow_roundTo, this, List.map_id]
      · rfl
    · rw [List.map_map]
      apply List.map_congr_left
      rintro ⟨a, n⟩ hs
      simp only [Function.comp, Prod.mk.injEq, true_and]
      by_cases hit : ∃ it ∈ L.itemsOf c, it.attr = a
      · obtain ⟨it, hit, rfl⟩ := hit
        rw [cycleAttr_item (hR c) hit, cycleAttr_item (hR c) hit]
        have hk := hty.1 it hit
        split
        · rename_i hpl
          have hg : it.get = .xmlSub := by revert hpl; cases it.get <;> simp [place]
          split
          · simp only [kindOk, hg] at hk
            by_cases hne : attrOf it.attr attrs = .none
            · rw [hne]; simp only [cycle, mapCoords]
            · refine ih1 _ _ (attrOf_mem rfl hne) (typed_attrOf ht _) ?_
              cases hv : attrOf it.attr attrs <;> rw [hv] at hk hne <;> simp [isInst] at hk hne
              exact ⟨_, _, _, _, rfl⟩
          · simp only [mapCoords]
        · rename_i hpl
          have hg : it.get = .xmlSubList := by revert hpl; cases it.get <;> simp [place]
          simp only [kindOk, hg] at hk
          cases hv : attrOf it.attr attrs <;> rw [hv] at hk <;> simp at hk
          rename_i l
          have heq : cycleMembers L ⟨some p, vb⟩ N (.list l) =
              (cycleMembers L ⟨none, vb⟩ N (.list l)).map (mapCoords (roundTo (some p))) := by
            rw [cycleMembers_list, cycleMembers_list, List.map_map]
            apply List.map_congr_left
            intro w hw
            have hw' := (List.mem_filter.mp hw).1
            obtain ⟨d, x, y, z, h, _⟩ := obj_of_inst (hk w hw')
            exact ih2 _ _ (attrOf_mem hv (by simp)) w hw' (typed_member ht hv hw') ⟨d, x, y, z, h⟩
          rw [heq, regroup_map (fun t v => mapCoords_isInst _ [t] v), mapCoords_list]
          congr 1
          split
          · rw [List.filter_map]
            congr 1
            apply List.filter_congr
            intro w _
            exact nonEmpty_mapCoords hr L w
          · rfl
        · rename_i hp1 hp2
          by_cases hg : it.get = .coordinates
          · rw [if_pos hg, if_pos hg]
            have : (fun c : Pt F => c.map (roundTo none)) = id := funext map_roundTo_none
            cases attrOf it.attr attrs <;> simp [rereadCoords, mapCoords, this]
          · rw [if_neg hg, if_neg hg]
            by_cases hs' : scalar it.get = true
            · have hk1 := kindOk_shown hs' ((hW c).item it hit).dflt hk vb
              have hk2 := kindOk_reread hs' hk1 ((hC c).norm _ n hs it hit rfl)
              exact (mapCoords_scalar _ hk2 hs').symm
            · exfalso
              have hsl := (hR c).slots it hit
              have : it.get = .subDtList ∨ it.get = .coordsList := by
                revert hs' hg hp1 hp2; cases it.get <;> simp [scalar, place]
              rcases slotOk_iff hsl with ⟨n', _, h⟩ | ⟨hsp, h⟩
              · revert h; rcases this with h | h <;> simp [h, normOk]
              · have hk := (hR c).known
                rw [List.nodup_append] at hk
                refine hk.2.2 it.attr ?_ it.attr (List.mem_map_of_mem (f := Prod.fst) hs) rfl
                rw [hsp]
                rcases h with ⟨h, _⟩ | ⟨h, _⟩ <;> simp_all [specialArgs]
      · have hf : (L.itemsOf c).find? (fun it => decide (it.attr = a)) = none := by
          rw [List.find?_eq_none]
          intro it hi; simp only [decide_eq_true_eq]; exact fun h => hit ⟨it, hi, h⟩
        unfold cycleAttr
        rw [hf]
        cases n <;> simp [unset, mapCoords, mapCoordsList]


theorem changeRow_idem {r : F → F} (h : ∀ f, r (r f) = r f) (i : TrackItem F) :
    changeRow r (changeRow r i) = changeRow r i := by
  obtain ⟨w, c, a⟩ := i
  cases a <;> simp [changeRow, Function.comp_def, h]

mutual
theorem mapCoords_idem {r : F → F} (h : ∀ f, r (r f) = r f) : ∀ v : Val C F, mapCoords r (mapCoords r v) = mapCoords r v
  | .obj c ns nss attrs => by simp only [mapCoords, mapCoordsAttrs_idem h attrs]
  | .list l => by simp only [mapCoords, mapCoordsList_idem h l]
  | .coords l => by simp [mapCoords, Function.comp_def, h]
  | .items l => by simp [mapCoords, Function.comp_def, changeRow_idem h]
  | .none => by simp only [mapCoords]
  | .str _ => by simp only [mapCoords]
  | .bool _ => by simp only [mapCoords]
  | .int _ => by simp only [mapCoords]
  | .float _ => by simp only [mapCoords]
  | .enum _ _ => by simp only [mapCoords]
  | .dt _ => by simp only [mapCoords]
  | .floats _ => by simp only [mapCoords]
  | .whens _ => by simp only [mapCoords]
theorem mapCoordsAttrs_idem {r : F → F} (h : ∀ f, r (r f) = r f) :
    ∀ l : List (Str × Val C F), mapCoordsAttrs r (mapCoordsAttrs r l) = mapCoordsAttrs r l
  | [] => by simp only [mapCoordsAttrs]
  | (a, v) :: t => by simp only [mapCoordsAttrs, mapCoords_idem h v, mapCoordsAttrs_idem h t]
theorem mapCoordsList_idem {r : F → F} (h : ∀ f, r (r f) = r f) :
    ∀ l : List (Val C F), mapCoordsList r (mapCoordsList r l) = mapCoordsList r l
  | [] => by simp only [mapCoordsList]
  | v :: t => by simp only [mapCoordsList, mapCoords_idem h v, mapCoordsList_idem h t]
end

end Verif
