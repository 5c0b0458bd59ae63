import Verif.Value

/-!
# `__bool__` and `geometry`

The truth value of Python values, the `__bool__` methods and the `geometry`
properties of the KML classes.  Which class has which rule is data
(`ClsInfo.bool`, `ClsInfo.geom`), listed in `Verif/Classes.lean` with citations.
-/

namespace Verif

variable {C F : Type} [DecidableEq C] [PyExt F]

/-- Truth value and `geometry` property of a value (either may raise). -/
structure Info (F : Type) where
  truthy : Except Err Bool
  geom : Except Err (Option (Geo F))

/-- An attribute value together with its truth value and geometry, and those of
its elements if it is a list. -/
structure View (C F : Type) where
  v : Val C F
  info : Info F
  elems : List (Info F)

/-- Info of values without a `geometry` attribute. -/
def Info.plain (b : Bool) : Info F := ⟨.ok b, .error .illTyped⟩

/-- The view of a missing attribute. -/
def View.missing : View C F := ⟨.none, .plain false, []⟩

/-- `self.a`. -/
def viewOf (a : Str) (attrs : List (Str × View C F)) : View C F := (dget a attrs).getD .missing

/-- `x is not None`. -/
def Val.notNone : Val C F → Bool
  | .none => false
  | _ => true

/-- A short-circuiting `and` over expressions that may raise. -/
def allE : List (Except Err Bool) → Except Err Bool
  | [] => .ok true
  | b :: bs => match b with
    | .error e => .error e
    | .ok false => .ok false
    | .ok true => allE bs

/-- A short-circuiting `or` over expressions that may raise. -/
def anyE : List (Except Err Bool) → Except Err Bool
  | [] => .ok false
  | b :: bs => match b with
    | .error e => .error e
    | .ok true => .ok true
    | .ok false => anyE bs

/-- Map pygeoif errors where the code catches `DimensionError` only
(fastkml/geometry.py:664, 804). -/
def catchDim {α : Type} : Except GeoErr α → Except Err (Option α)
  | .ok a => .ok (some a)
  | .error .dimension => .ok none
  | .error .type => .error .typeError

/-- pygeoif errors that are not caught. -/
def liftGeo {α : Type} : Except GeoErr α → Except Err α
  | .ok a => .ok a
  | .error .dimension => .error .dimensionError
  | .error .type => .error .typeError

/-- `kml_coordinates.coords`. -/
def coordsOf : Val C F → Except Err (List (Pt F))
  | .obj _ _ _ attrs => match dget (s% "coords") attrs with
    | some (.coords l) => .ok l
    | _ => .error .illTyped
  | _ => .error .illTyped

/-- `Point.geometry` (fastkml/geometry.py:482-498): `from_coordinates` takes the
first coordinate; `DimensionError` and `TypeError` are caught. -/
def pointGeom : List (Pt F) → Option (Geo F)
  | [] => none
  | p :: _ => match mkPoint p with
    | .ok p => some (.point p)
    | .error _ => none

/-- The members with a geometry that is not `None`; the first exception wins. -/
def someGeoms : List (Info F) → Except Err (List (Geo F))
  | [] => .ok []
  | i :: is => match i.geom with
    | .error e => .error e
    | .ok none => someGeoms is
    | .ok (some g) => match someGeoms is with
      | .error e => .error e
      | .ok gs => .ok (g :: gs)

/-- The members with a truthy geometry (fastkml/geometry.py:1340, fastkml/gx.py:449). -/
def truthyGeoms (is : List (Info F)) : Except Err (List (Geo F)) :=
  match someGeoms is with
  | .error e => .error e
  | .ok gs => .ok (gs.filter Geo.nonEmpty)

/-- The rings of a list of geometries, in order. -/
def ringsOf : List (Geo F) → Except Err (List (List (Pt F)))
  | [] => .ok []
  | .linearRing l :: gs => match liftGeo (mkRing l), ringsOf gs with
    | .error e, _ => .error e
    | _, .error e => .error e
    | .ok r, .ok rs => .ok (r :: rs)
  | _ :: _ => .error .illTyped

/-- The coordinates of a list of points, if all are points. -/
def allPoints : List (Geo F) → Option (List (Pt F))
  | [] => some []
  | .point p :: gs => (allPoints gs).map (p :: ·)
  | _ :: _ => none

/-- The coordinates of a list of line strings, if all are line strings. -/
def allLines : List (Geo F) → Option (List (List (Pt F)))
  | [] => some []
  | .lineString l :: gs => (allLines gs).map (l :: ·)
  | _ :: _ => none

/-- The rings of a list of polygons, if all are polygons. -/
def allPolygons : List (Geo F) → Option (List (List (Pt F) × List (List (Pt F))))
  | [] => some []
  | .polygon s h :: gs => (allPolygons gs).map ((s, h) :: ·)
  | _ :: _ => none

/-- `create_multigeometry` (fastkml/geometry.py:1194-1225).  `geom_type` is the
class name, so a list of `LinearRing`s is not a list of line strings.
Simplification: the `from_*` constructors rebuild members that are already in
normal form, so they are kept as they are. -/
def createMulti (gs : List (Geo F)) : Option (Geo F) :=
  match gs with
  | [] => none
  | _ => match allPoints gs with
    | some ps => some (.multiPoint ps)
    | none => match allLines gs with
      | some ls => some (.multiLineString ls)
      | none => match allPolygons gs with
        | some ps => some (.multiPolygon ps)
        | none => some (.collection (gs.filter Geo.nonEmpty))

/-- A number attribute as a float. -/
def numOf : Val C F → Except Err (Option F)
  | .none => .ok none
  | .float f => .ok (some f)
  | .int i => .ok (some (PyExt.ofInt i))
  | _ => .error .illTyped

/-- `Track.geometry`: `LineString.from_points` over the items
(fastkml/gx.py:164-181, 305-316).  Uncaught errors of pygeoif propagate. -/
def trackGeom (l : List (TrackItem F)) : Except Err (Option (Geo F)) :=
  match liftGeo (mkLine (l.map (·.coord))) with
  | .error e => .error e
  | .ok ps => .ok (some (.lineString ps))

/-- The `geometry` property, given the views of the attributes. -/
def geomStep (k : GeomKind) (attrs : List (Str × View C F)) : Except Err (Option (Geo F)) :=
  match k with
  | .none => .error .illTyped
  | .point =>
    -- fastkml/geometry.py:482-498
    let kc := viewOf (s% "kml_coordinates") attrs
    match kc.info.truthy with
    | .error e => .error e
    | .ok false => .ok none
    | .ok true => match coordsOf kc.v with
      | .error e => .error e
      | .ok cs => .ok (pointGeom cs)
  | .lineString =>
    -- fastkml/geometry.py:649-665
    let kc := viewOf (s% "kml_coordinates") attrs
    match kc.info.truthy with
    | .error e => .error e
    | .ok false => .ok none
    | .ok true => match coordsOf kc.v with
      | .error e => .error e
      | .ok cs => match catchDim (mkLine cs) with
        | .error e => .error e
        | .ok l => .ok (l.map .lineString)
  | .linearRing =>
    -- fastkml/geometry.py:786-805
    let kc := viewOf (s% "kml_coordinates") attrs
    match kc.info.truthy with
    | .error e => .error e
    | .ok false => .ok none
    | .ok true => match coordsOf kc.v with
      | .error e => .error e
      | .ok cs => match catchDim (mkRing cs) with
        | .error e => .error e
        | .ok l => .ok (l.map .linearRing)
  | .boundary =>
    -- fastkml/geometry.py:896-907
    let kg := viewOf (s% "kml_geometry") attrs
    match kg.info.truthy with
    | .error e => .error e
    | .ok false => .ok none
    | .ok true => kg.info.geom
  | .polygon =>
    -- fastkml/geometry.py:1068-1092
    let ob := viewOf (s% "outer_boundary") attrs
    match ob.info.truthy with
    | .error e => .error e
    | .ok false => .ok none
    | .ok true => match ob.info.geom with
      | .error e => .error e
      | .ok (some (.linearRing l)) =>
        match liftGeo (mkRing l), someGeoms (viewOf (s% "inner_boundaries") attrs).elems with
        | .error e, _ => .error e
        | _, .error e => .error e
        | .ok shell, .ok gs => match ringsOf gs with
          | .error e => .error e
          | .ok holes => .ok (some (.polygon shell holes))
      | .ok _ => .error .illTyped
  | .multi =>
    -- fastkml/geometry.py:1336-1341
    match truthyGeoms (viewOf (s% "kml_geometries") attrs).elems with
    | .error e => .error e
    | .ok gs => .ok (createMulti gs)
  | .track =>
    -- fastkml/gx.py:305-316
    match (viewOf (s% "track_items") attrs).v with
    | .items l => trackGeom l
    | _ => .error .illTyped
  | .multiTrack =>
    -- fastkml/gx.py:433-450, 533-543
    match truthyGeoms (viewOf (s% "tracks") attrs).elems with
    | .error e => .error e
    | .ok gs => match allLines gs with
      | some ls => .ok (some (.multiLineString ls))
      | none => .error .illTyped
  | .location =>
    -- fastkml/model.py:98-104
    match numOf (viewOf (s% "longitude") attrs).v, numOf (viewOf (s% "latitude") attrs).v,
        numOf (viewOf (s% "altitude") attrs).v with
    | .ok (some lon), .ok (some lat), .ok none => .ok (some (.point [lon, lat]))
    | .ok (some lon), .ok (some lat), .ok (some alt) => .ok (some (.point [lon, lat, alt]))
    | .ok _, .ok _, .ok _ => .ok none
    | _, _, _ => .error .illTyped
  | .model =>
    -- fastkml/model.py:476-478
    let l := viewOf (s% "location") attrs
    match l.info.truthy with
    | .error e => .error e
    | .ok false => .ok none
    | .ok true => l.info.geom
  | .placemark =>
    -- fastkml/features.py:651-661
    let kg := viewOf (s% "kml_geometry") attrs
    if kg.v.notNone then kg.info.geom else .ok none

/-- `__bool__`, given the views of the attributes and the geometry. -/
def boolStep (r : BoolRule) (attrs : List (Str × View C F)) (g : Except Err (Option (Geo F))) :
    Except Err Bool :=
  match r with
  | .always => .ok true
  | .allTruthy as => allE (as.map fun a => (viewOf a attrs).info.truthy)
  | .anyTruthy as => anyE (as.map fun a => (viewOf a attrs).info.truthy)
  | .allNotNone as => .ok (as.all fun a => (viewOf a attrs).v.notNone)
  | .anyNotNone as => .ok (as.any fun a => (viewOf a attrs).v.notNone)
  | .anyElem a => anyE ((viewOf a attrs).elems.map (·.truthy))
  | .geometry => match g with
    | .error e => .error e
    | .ok none => .ok false
    | .ok (some g) => .ok g.nonEmpty

/-- Truth value and geometry of an object. -/
def infoStep (i : ClsInfo C) (attrs : List (Str × View C F)) : Info F :=
  let g := geomStep i.geom attrs
  ⟨boolStep i.bool attrs g, g⟩

mutual
/-- Truth value (`bool(v)`) and `geometry` of any value. -/
def info (L : Lib C) : Val C F → Info F
  | .none => .plain false
  | .str s => .plain (!s.isEmpty)
  | .bool b => .plain b
  | .int i => .plain (i != 0)
  | .float f => .plain (PyExt.truthy f)
  | .enum _ _ => .plain true
  | .dt _ => .plain true
  | .floats l => .plain (!l.isEmpty)
  | .coords l => .plain (!l.isEmpty)
  | .whens l => .plain (!l.isEmpty)
  | .items l => .plain (!l.isEmpty)
  | .obj c _ _ attrs => infoStep (L.info c) (infoAttrs L attrs)
  | .list l => .plain (!l.isEmpty)
termination_by structural v => v

/-- The elements of a list value. -/
def infoElems (L : Lib C) : Val C F → List (Info F)
  | .list l => infoList L l
  | _ => []
termination_by structural v => v

/-- Views of the attributes. -/
def infoAttrs (L : Lib C) : List (Str × Val C F) → List (Str × View C F)
  | [] => []
  | (a, v) :: r => (a, ⟨v, info L v, infoElems L v⟩) :: infoAttrs L r
termination_by structural l => l

/-- Infos of list elements. -/
def infoList (L : Lib C) : List (Val C F) → List (Info F)
  | [] => []
  | v :: r => info L v :: infoList L r
termination_by structural l => l
end

/-- `bool(v)`. -/
def truthy (L : Lib C) (v : Val C F) : Except Err Bool := (info L v).truthy

/-- `v.geometry`. -/
def geometry (L : Lib C) (v : Val C F) : Except Err (Option (Geo F)) := (info L v).geom

end Verif
