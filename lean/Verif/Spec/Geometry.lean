import Verif.Geoif

/-!
# Specification: geometries

What a well-formed pygeoif geometry is, and how the parts of a multi-part
geometry are classified.  Nothing here refers to the KML classes.
-/

namespace Verif.Spec

variable {F : Type} [PyExt F]

/-- A point with two or three components, none of them NaN. -/
def NormalPoint (p : Pt F) : Prop :=
  (p.length = 2 ∨ p.length = 3) ∧ ∀ x ∈ p, PyExt.isNaN x = false

/-- A line: at least one point, all of the same dimension, without NaN, and no
point twice in a row. -/
structure NormalLine (l : List (Pt F)) : Prop where
  nonempty : l ≠ []
  points : ∀ p ∈ l, NormalPoint p
  dim : ∀ p ∈ l, ∀ q ∈ l, p.length = q.length
  distinct : ∀ a p q b, l = a ++ p :: q :: b → ptBeq p q = false

/-- The first point is the last point. -/
def Closed (l : List (Pt F)) : Prop :=
  ∀ p q, l.head? = some p → l.getLast? = some q → ptBeq p q = true

/-- A closed line. -/
structure NormalRing (l : List (Pt F)) : Prop extends NormalLine l where
  closed : Closed l

mutual
/-- A non-empty geometry as the constructors of pygeoif make it: no empty parts,
lines without repeated points, closed rings. -/
def Normal : Geo F → Prop
  | .point p => NormalPoint p
  | .lineString l => NormalLine l
  | .linearRing l => NormalRing l
  | .polygon s hs => NormalRing s ∧ ∀ h ∈ hs, NormalRing h
  | .multiPoint l => l ≠ [] ∧ ∀ p ∈ l, NormalPoint p
  | .multiLineString l => l ≠ [] ∧ ∀ p ∈ l, NormalLine p
  | .multiPolygon l => l ≠ [] ∧ ∀ p ∈ l, NormalRing p.1 ∧ ∀ h ∈ p.2, NormalRing h
  | .collection l => l ≠ [] ∧ Normals l
termination_by structural g => g

/-- All of them. -/
def Normals : List (Geo F) → Prop
  | [] => True
  | g :: gs => Normal g ∧ Normals gs
termination_by structural l => l
end

/-- The coordinates of a point. -/
def point? : Geo F → Option (Pt F)
  | .point p => some p
  | _ => none

/-- The coordinates of a line string (a ring is not one). -/
def line? : Geo F → Option (List (Pt F))
  | .lineString l => some l
  | _ => none

/-- The rings of a polygon. -/
def polygon? : Geo F → Option (List (Pt F) × List (List (Pt F)))
  | .polygon s hs => some (s, hs)
  | _ => none

/-- The multi-part geometry with the given parts: a `MultiPoint`,
`MultiLineString` or `MultiPolygon` if all parts are points, line strings or
polygons, else a `GeometryCollection`. -/
def gather (l : List (Geo F)) : Geo F :=
  if l.all fun g => (point? g).isSome then .multiPoint (l.filterMap point?)
  else if l.all fun g => (line? g).isSome then .multiLineString (l.filterMap line?)
  else if l.all fun g => (polygon? g).isSome then .multiPolygon (l.filterMap polygon?)
  else .collection l

mutual
/-- The geometry with every collection of points, of line strings or of polygons
replaced by the corresponding `Multi` geometry, innermost first. -/
def toMulti : Geo F → Geo F
  | .collection l => gather (toMultis l)
  | .point p => .point p
  | .lineString l => .lineString l
  | .linearRing l => .linearRing l
  | .polygon s hs => .polygon s hs
  | .multiPoint l => .multiPoint l
  | .multiLineString l => .multiLineString l
  | .multiPolygon l => .multiPolygon l
termination_by structural g => g

/-- All of them. -/
def toMultis : List (Geo F) → List (Geo F)
  | [] => []
  | g :: gs => toMulti g :: toMultis gs
termination_by structural l => l
end

end Verif.Spec
