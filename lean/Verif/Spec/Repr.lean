import Verif.Repr
import Verif.Spec.Eq

/-!
# What evaluating a printed object is meant to give
-/

namespace Verif.Spec

variable {F : Type} [PyExt F]

/-- The abstract base classes: a user makes no instances of these. -/
def abstractClasses : List Cls :=
  [._XMLObject, ._BaseObject, ._AtomObject, ._AbstractView, ._ColorStyle, ._Geometry, ._Feature, ._Overlay]

/-- The classes that print their geometry in place of the elements it is made of. -/
def geometryClasses : List Cls := [.LineString, .LinearRing, .Polygon]

/-- A time made by the constructor of `KmlDateTime`. -/
def TimeMade (k : KmlDateTime) : Prop := ∃ m r, k = .mk' m r

/-- The times in a value are made by their constructor. -/
def TimesMade : Val Cls F → Prop
  | .dt k => TimeMade k
  | .whens l => ∀ w ∈ l, ∀ k, w = some k → TimeMade k
  | .items l => ∀ r ∈ l, ∀ k, r.when_ = some k → TimeMade k
  | _ => True

/-- An object that its constructor returned: not one of an abstract class, and a schema
that has an id. -/
structure Constructed (c : Cls) (ns : Str) (nss : NsMap) (attrs : List (Str × Val Cls F)) : Prop where
  concrete : c ∉ abstractClasses
  made : ∃ ns0 nss0 kw, init fastkml c ns0 nss0 kw = .ok (.obj c ns nss attrs)
  schema : c = .Schema → attr (s% "id") attrs ≠ .none

/-- An object as a user has it who made it, and all objects in it, with constructors. -/
structure Fresh [PyClose F] (v : Val Cls F) : Prop where
  regular : AllRegular v
  numbers : NoNaN v
  times : ∀ w, Inside w v → TimesMade w
  made : Everywhere Constructed v

/-- The KML namespace. -/
def kmlUri : Str := s% "{http://www.opengis.net/kml/2.2}"

/-- `Coordinates(coords=l)`. -/
def coordsObj (l : List (Pt F)) : Val Cls F := .obj .Coordinates kmlUri (mergeNs []) [(s% "coords", .coords l)]

/-- `LinearRing(geometry=…)` with the coordinates `l` and no other arguments. -/
def ringObj (l : List (Pt F)) : Val Cls F := .obj .LinearRing kmlUri (mergeNs [])
  [(s% "kml_coordinates", coordsObj l), (s% "extrude", .none), (s% "tessellate", .none), (s% "id", .str []),
   (s% "target_id", .str []), (s% "altitude_mode", .none)]

/-- `OuterBoundaryIs(kml_geometry=…)` or `InnerBoundaryIs(kml_geometry=…)`. -/
def boundaryObj (c : Cls) (l : List (Pt F)) : Val Cls F := .obj c kmlUri (mergeNs [])
  [(s% "kml_geometry", ringObj l)]

/-- The coordinates of a line or ring, if it has a geometry. -/
def coordsArg : Option (Geo F) → Val Cls F
  | some (.lineString l) => coordsObj l
  | some (.linearRing l) => coordsObj l
  | _ => .none

/-- The outer boundary of a polygon. -/
def outerArg : Option (Geo F) → Val Cls F
  | some (.polygon s _) => boundaryObj .OuterBoundaryIs s
  | _ => .none

/-- The inner boundaries of a polygon. -/
def innerArg : Option (Geo F) → List (Val Cls F)
  | some (.polygon _ hs) => hs.map (boundaryObj .InnerBoundaryIs)
  | _ => []

/-- The attribute `a` set to `w`. -/
def putAttr (a : Str) (w : Val Cls F) (attrs : List (Str × Val Cls F)) : List (Str × Val Cls F) :=
  attrs.map fun p => if p.1 = a then (a, w) else p

/-- The elements that a line, ring or polygon gets from its geometry in place of those
it had. -/
def fromGeometry (c : Cls) (g : Option (Geo F)) (attrs : List (Str × Val Cls F)) : List (Str × Val Cls F) :=
  if c = .LineString ∨ c = .LinearRing then putAttr (s% "kml_coordinates") (coordsArg g) attrs
  else if c = .Polygon then
    putAttr (s% "outer_boundary") (outerArg g) (putAttr (s% "inner_boundaries") (.list (innerArg g)) attrs)
  else attrs

/-- The geometry; nothing if it cannot be computed. -/
def geometryOf (v : Val Cls F) : Option (Geo F) :=
  match geometry fastkml v with
  | .ok g => g
  | .error _ => none

mutual
/-- The object, with the elements of lines, rings and polygons made anew from their
geometries. -/
def rebuilt : Val Cls F → Val Cls F
  | .obj c ns nss attrs =>
    .obj c ns nss (fromGeometry c (geometryOf (.obj c ns nss attrs)) (rebuiltAttrs attrs))
  | .list l => .list (rebuiltList l)
  | .none => .none
  | .str s => .str s
  | .bool b => .bool b
  | .int i => .int i
  | .float f => .float f
  | .enum e x => .enum e x
  | .dt k => .dt k
  | .floats l => .floats l
  | .coords l => .coords l
  | .whens l => .whens l
  | .items l => .items l
termination_by structural v => v
/-- The same for attributes. -/
def rebuiltAttrs : List (Str × Val Cls F) → List (Str × Val Cls F)
  | [] => []
  | (a, v) :: r => (a, rebuilt v) :: rebuiltAttrs r
termination_by structural l => l
/-- The same for lists. -/
def rebuiltList : List (Val Cls F) → List (Val Cls F)
  | [] => []
  | v :: r => rebuilt v :: rebuiltList r
termination_by structural l => l
end

/-- Further keyword arguments in a call of the constructor of `c`, as in
`Placemark(name="a", colour="red")`: the constructor accepts them, they are not among its
parameters, and they are numbers, texts, times, objects or lists of objects. -/
structure Extras [PyClose F] (c : Cls) (ex : List (Str × Val Cls F)) : Prop where
  accepted : (fastkml.info c).kwargs = true
  nodup : (ex.map Prod.fst).Nodup
  new : ∀ a ∈ ex.map Prod.fst, a ∉ specialArgs (fastkml.info c).special ++ (fastkml.info c).slots.map Prod.fst ++
    [s% "self", s% "ns", s% "name_spaces", s% "geometry", s% "extrude", s% "tessellate", s% "altitude_mode"]
  fresh : ∀ p ∈ ex, Fresh p.2
  printed : ∀ p ∈ ex, (∀ e x, p.2 ≠ .enum e x) ∧
    ∀ l, p.2 = .list l → ∀ w ∈ l, ∃ c ns nss attrs, w = .obj c ns nss attrs

/-- The further arguments that are not `None`, with `rebuilt` values. -/
def keptExtras (ex : List (Str × Val Cls F)) : List (Str × Val Cls F) :=
  (ex.filter fun p => p.2.notNone).map fun p => (p.1, rebuilt p.2)

end Verif.Spec
