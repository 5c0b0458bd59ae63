import Verif.Ext

/-!
# pygeoif

The part of the external package `pygeoif` (>= 1.5) that fastkml calls, modelled
from its documented behaviour: it is not in /repo.  Call sites:
fastkml/geometry.py:418, 496, 594, 663, 802, 1082-1092, 1214-1225, 1421;
fastkml/gx.py:179, 261, 343, 448; fastkml/model.py:104.
-/

namespace Verif

/-- A coordinate tuple. -/
abbrev Pt (F : Type) := List F

/-- `pygeoif.geometry` objects. -/
inductive Geo (F : Type) where
  | point (p : Pt F)
  | lineString (l : List (Pt F))
  | linearRing (l : List (Pt F))
  | polygon (shell : List (Pt F)) (holes : List (List (Pt F)))
  | multiPoint (l : List (Pt F))
  | multiLineString (l : List (List (Pt F)))
  | multiPolygon (l : List (List (Pt F) × List (List (Pt F))))
  | collection (l : List (Geo F))

/-- The exceptions of pygeoif. -/
inductive GeoErr where
  /-- `pygeoif.exceptions.DimensionError` -/
  | dimension
  /-- `TypeError` from `Point(*coord)` with a wrong number of components -/
  | type
deriving DecidableEq, Repr

variable {F : Type} [PyExt F]

/-- Componentwise `==` of coordinate tuples. -/
def ptBeq : Pt F → Pt F → Bool
  | [], [] => true
  | a :: as, b :: bs => PyExt.beq a b && ptBeq as bs
  | _, _ => false

/-- `dedupe` behind a kept coordinate `p`. -/
def dedupeFrom (p : Pt F) : List (Pt F) → List (Pt F)
  | [] => []
  | q :: r => if ptBeq p q then dedupeFrom p r else q :: dedupeFrom q r

/-- `pygeoif.functions.dedupe` (`itertools.groupby`): drop consecutive
duplicates. -/
def dedupe : List (Pt F) → List (Pt F)
  | [] => []
  | p :: r => p :: dedupeFrom p r

/-- `Point(*coord)`: needs two or three components. -/
def mkPoint (p : Pt F) : Except GeoErr (Pt F) :=
  if p.length = 2 ∨ p.length = 3 then .ok p else .error .type

/-- `Point.is_empty`: some component is NaN. -/
def ptEmpty (p : Pt F) : Bool := p.any PyExt.isNaN

/-- `LineString._set_geoms` after `dedupe`: all coordinates must have the same
dimension (checked first), each must make a `Point`, empty points are dropped. -/
def setGeoms (last : Option Nat) : List (Pt F) → Except GeoErr (List (Pt F))
  | [] => .ok []
  | p :: r =>
    if last ≠ none ∧ last ≠ some p.length then .error .dimension
    else match mkPoint p with
      | .error e => .error e
      | .ok p => match setGeoms (some p.length) r with
        | .error e => .error e
        | .ok r' => .ok (if ptEmpty p then r' else p :: r')

/-- `LineString(coordinates)`. -/
def mkLine (l : List (Pt F)) : Except GeoErr (List (Pt F)) := setGeoms none (dedupe l)

/-- `LinearRing(coordinates)`: a `LineString` that is closed if it is not
already (`if self._geoms and self._geoms[0].coords != self._geoms[-1].coords`). -/
def closeRing (l : List (Pt F)) : List (Pt F) :=
  match l with
  | [] => []
  | p :: r => match (p :: r).getLast? with
    | none => p :: r
    | some q => if ptBeq p q then p :: r else p :: r ++ [p]

/-- `LinearRing(coordinates)`. -/
def mkRing (l : List (Pt F)) : Except GeoErr (List (Pt F)) :=
  match mkLine l with
  | .error e => .error e
  | .ok l => .ok (closeRing l)

/-- `bool(geom)`, i.e. `not geom.is_empty`. -/
def Geo.nonEmpty : Geo F → Bool
  | .point p => !ptEmpty p
  | .lineString l => !l.isEmpty
  | .linearRing l => !l.isEmpty
  | .polygon s _ => !s.isEmpty
  | .multiPoint l => l.any fun p => !ptEmpty p
  | .multiLineString l => l.any fun l => !l.isEmpty
  | .multiPolygon l => l.any fun p => !p.1.isEmpty
  | .collection l => !l.isEmpty

end Verif
