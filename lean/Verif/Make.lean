import Verif.Classes

/-!
# Constructors with a pygeoif geometry

The `geometry` argument of the KML geometry classes and of `Placemark`, and
`create_kml_geometry`.
-/

namespace Verif

variable {F : Type} [PyExt F]

/-- `kwargs.pop(k, None)`. -/
def ddel {α β : Type} [DecidableEq α] (k : α) (d : List (α × β)) : List (α × β) :=
  d.filter fun p => decide (p.1 ≠ k)

/-- `geom.coords` of a `Point`, `LineString` or `LinearRing` (pygeoif).  Other
geometries have no such attribute. -/
def Geo.coords : Geo F → Except Err (List (Pt F))
  | .point p => .ok [p]
  | .lineString l => .ok l
  | .linearRing l => .ok l
  | _ => .error .illTyped

/-- `Coordinates(coords=geometry.coords)`: in the default namespace
(fastkml/geometry.py:418, 594). -/
def newCoordinates (g : Geo F) : Except Err (Val Cls F) :=
  match g.coords with
  | .error e => .error e
  | .ok l => init fastkml .Coordinates none [] [(s% "coords", .coords l)]

/-- `Point.__init__` (fastkml/geometry.py:379-432), `LineString.__init__`
(fastkml/geometry.py:556-605) and `LinearRing.__init__`
(fastkml/geometry.py:728-784, which passes everything on): the arguments other
than `ns`, `name_spaces` and `geometry` are in `kw`. -/
def initCoords (c : Cls) (ns : Option Str) (nss : NsMap) (g : Option (Geo F))
    (kw : List (Str × Val Cls F)) : Except Err (Val Cls F) :=
  let kw := if c = .Point then ddel (s% "tessellate") kw else kw
  match g with
  | none => init fastkml c ns nss kw
  | some g =>
    if (kwGet (s% "kml_coordinates") kw).notNone then .error .geometryError
    else if g.nonEmpty then match newCoordinates g with
      | .error e => .error e
      | .ok k => init fastkml c ns nss (dset (s% "kml_coordinates") k kw)
    else init fastkml c ns nss kw

/-- `BoundaryIs.__init__` (fastkml/geometry.py:822-871), also of
`OuterBoundaryIs` and `InnerBoundaryIs`. -/
def initBoundary (c : Cls) (ns : Option Str) (nss : NsMap) (g : Option (Geo F))
    (kw : List (Str × Val Cls F)) : Except Err (Val Cls F) :=
  match g with
  | none => init fastkml c ns nss kw
  | some g =>
    if (kwGet (s% "kml_geometry") kw).notNone then .error .geometryError
    else if g.nonEmpty then match initCoords .LinearRing ns nss (some g) [] with
      | .error e => .error e
      | .ok k => init fastkml c ns nss (dset (s% "kml_geometry") k kw)
    else init fastkml c ns nss kw

/-- A list comprehension whose elements may raise. -/
def seqE {α : Type} : List (Except Err α) → Except Err (List α)
  | [] => .ok []
  | x :: xs => match x with
    | .error e => .error e
    | .ok a => match seqE xs with
      | .error e => .error e
      | .ok as => .ok (a :: as)

/-- `Polygon.__init__` (fastkml/geometry.py:983-1054); the boundaries made from
`geometry` are in the default namespace.  `geometry.interiors` is the list of
holes. -/
def initPolygon (ns : Option Str) (nss : NsMap) (g : Option (Geo F))
    (kw : List (Str × Val Cls F)) : Except Err (Val Cls F) :=
  match g with
  | none => init fastkml .Polygon ns nss kw
  | some g =>
    if (kwGet (s% "outer_boundary") kw).notNone then .error .geometryError
    else match g with
      | .polygon s hs => match initBoundary .OuterBoundaryIs none [] (some (.linearRing s)) [] with
        | .error e => .error e
        | .ok o => match seqE (hs.map fun h =>
              initBoundary .InnerBoundaryIs none [] (some (.linearRing h)) []) with
          | .error e => .error e
          | .ok is => init fastkml .Polygon ns nss
              (dset (s% "inner_boundaries") (.list is) (dset (s% "outer_boundary") o kw))
      | _ => .error .illTyped

/-- `MultiGeometry.__init__` (fastkml/geometry.py:1233-1317), given the results of
`create_kml_geometry` for the members of `geometry`, if that is not `None`.
`extrude`, `tessellate` and `altitude_mode` are not stored. -/
def initMulti (ns : Option Str) (nss : NsMap) (g : Option (List (Except Err (Val Cls F))))
    (kw : List (Str × Val Cls F)) : Except Err (Val Cls F) :=
  let kw := ddel (s% "extrude") (ddel (s% "tessellate") (ddel (s% "altitude_mode") kw))
  match g with
  | none => init fastkml .MultiGeometry ns nss kw
  | some ms =>
    if (kwGet (s% "kml_geometries") kw).notNone then .error .geometryError
    else match seqE ms with
      | .error e => .error e
      | .ok l => init fastkml .MultiGeometry ns nss (dset (s% "kml_geometries") (.list l) kw)

/-- The pygeoif classes. -/
inductive GeoCls where
  | point | polygon | linearRing | lineString | multiPoint | multiLineString | multiPolygon
  | collection
deriving DecidableEq, Repr

/-- `isinstance(geom, cls)`: `LinearRing` is a subclass of `LineString`. -/
def Geo.isInst : Geo F → GeoCls → Bool
  | .point _, .point => true
  | .lineString _, .lineString => true
  | .linearRing _, .linearRing => true
  | .linearRing _, .lineString => true
  | .polygon _ _, .polygon => true
  | .multiPoint _, .multiPoint => true
  | .multiLineString _, .multiLineString => true
  | .multiPolygon _, .multiPolygon => true
  | .collection _, .collection => true
  | _, _ => false

/-- `_map_to_kml` (fastkml/geometry.py:1407-1419). -/
def mapToKml : List (GeoCls × Cls) :=
  [(.point, .Point), (.polygon, .Polygon), (.linearRing, .LinearRing), (.lineString, .LineString),
   (.multiPoint, .MultiGeometry), (.multiLineString, .MultiGeometry),
   (.multiPolygon, .MultiGeometry), (.collection, .MultiGeometry)]

/-- `shape(geometry)` of pygeoif, which reads `geometry.__geo_interface__`: it
raises `AttributeError` for empty geometries.  Simplification: the copy of a
geometry is the geometry itself, which holds for geometries in the normal form
that pygeoif's constructors produce (`Spec.Normal`). -/
def shape (g : Geo F) : Except Err (Geo F) :=
  if g.nonEmpty then .ok g else .error .illTyped

/-- The arguments of `create_kml_geometry` besides the geometry. -/
structure GeoArgs (F : Type) where
  ns : Option Str := none
  nss : NsMap := []
  id : Val Cls F := .none
  targetId : Val Cls F := .none
  extrude : Val Cls F := .none
  tessellate : Val Cls F := .none
  altitudeMode : Val Cls F := .none

/-- The arguments that `MultiGeometry` passes on for its members
(fastkml/geometry.py:1297-1304). -/
def GeoArgs.members (a : GeoArgs F) : GeoArgs F := { a with id := .none, targetId := .none }

/-- The keyword arguments of the constructor call (fastkml/geometry.py:1424-1433). -/
def GeoArgs.kw (a : GeoArgs F) : List (Str × Val Cls F) :=
  [(s% "id", a.id), (s% "target_id", a.targetId), (s% "extrude", a.extrude),
   (s% "tessellate", a.tessellate), (s% "altitude_mode", a.altitudeMode)]

/-- `create_kml_geometry` (fastkml/geometry.py:1377-1435), given its results for
the members of a multi-part geometry. -/
def createStep (a : GeoArgs F) (g : Geo F) (ms : List (Except Err (Val Cls F))) :
    Except Err (Val Cls F) :=
  match shape g with
  | .error e => .error e
  | .ok g => match mapToKml.find? fun p => g.isInst p.1 with
    | none => .error .writeError
    | some (_, c) =>
      if c = .Polygon then initPolygon a.ns a.nss (some g) a.kw
      else if c = .MultiGeometry then initMulti a.ns a.nss (some ms) a.kw
      else initCoords c a.ns a.nss (some g) a.kw

mutual
/-- `create_kml_geometry(geometry, ns=…, …)`; the members of a multi-part
geometry are `geometry.geoms` (fastkml/geometry.py:1305). -/
def createKml (a : GeoArgs F) : Geo F → Except Err (Val Cls F)
  | .point p => createStep a (.point p) []
  | .lineString l => createStep a (.lineString l) []
  | .linearRing l => createStep a (.linearRing l) []
  | .polygon s h => createStep a (.polygon s h) []
  | .multiPoint l => createStep a (.multiPoint l)
      (l.map fun p => createStep a.members (.point p) [])
  | .multiLineString l => createStep a (.multiLineString l)
      (l.map fun p => createStep a.members (.lineString p) [])
  | .multiPolygon l => createStep a (.multiPolygon l)
      (l.map fun p => createStep a.members (.polygon p.1 p.2) [])
  | .collection l => createStep a (.collection l) (createKmls a.members l)
termination_by structural g => g

/-- The members. -/
def createKmls (a : GeoArgs F) : List (Geo F) → List (Except Err (Val Cls F))
  | [] => []
  | g :: gs => createKml a g :: createKmls a gs
termination_by structural l => l
end

/-- `geometry.geoms` of a multi-part geometry. -/
def Geo.geoms : Geo F → List (Geo F)
  | .multiPoint l => l.map .point
  | .multiLineString l => l.map .lineString
  | .multiPolygon l => l.map fun p => .polygon p.1 p.2
  | .collection l => l
  | _ => []

/-- `MultiGeometry(geometry=…, kml_geometries=…, …)`. -/
def makeMulti (ns : Option Str) (nss : NsMap) (g : Option (Geo F)) (kw : List (Str × Val Cls F)) :
    Except Err (Val Cls F) :=
  let a : GeoArgs F := ⟨ns, nss, .none, .none, kwGet (s% "extrude") kw,
    kwGet (s% "tessellate") kw, kwGet (s% "altitude_mode") kw⟩
  initMulti ns nss (g.map fun g => g.geoms.map (createKml a)) kw

/-- `self.a = w`. -/
def Val.setAttr (self : Val Cls F) (a : Str) (w : Val Cls F) : Val Cls F :=
  match self with
  | .obj c ns nss attrs => .obj c ns nss (dset a w attrs)
  | v => v

/-- `Placemark(geometry=…, kml_geometry=…, …)` (fastkml/features.py:500-613): the
other arguments are stored first. -/
def makePlacemark (ns : Option Str) (nss : NsMap) (g : Option (Geo F))
    (kw : List (Str × Val Cls F)) : Except Err (Val Cls F) :=
  let kg := kwGet (s% "kml_geometry") kw
  match init fastkml .Placemark ns nss (ddel (s% "kml_geometry") kw) with
  | .error e => .error e
  | .ok v => match truthy fastkml kg with
    | .error e => .error e
    | .ok b => match g with
      | none => .ok (v.setAttr (s% "kml_geometry") kg)
      | some g =>
        if b && g.nonEmpty then .error .valueError
        else if g.nonEmpty then match createKml ⟨ns, nss, .none, .none, .none, .none, .none⟩ g with
          | .error e => .error e
          | .ok k => .ok (v.setAttr (s% "kml_geometry") k)
        else .ok (v.setAttr (s% "kml_geometry") kg)

end Verif
