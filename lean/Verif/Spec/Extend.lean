import Verif.Spec.Cycle

/-!
# Extending the library

What it means to register a further attribute for a class of an existing library
(docs/working_with_kml.rst:92-200, examples/transform_cascading_style.py).
-/

namespace Verif

variable {C F : Type} [DecidableEq C] [PyExt F]

/-- `registry.register(c, it)` on the global registry (fastkml/registry.py:137-156). -/
def Lib.register (L : Lib C) (c : C) (it : Item C) : Lib C := { L with reg := L.reg.register c it }

namespace Spec

mutual
/-- Change the attributes of an object, and of all objects in it, with `f`. -/
def mapObjects (f : C → List (Str × Val C F) → List (Str × Val C F)) : Val C F → Val C F
  | .obj c ns nss attrs => .obj c ns nss (f c (mapObjectsAttrs f attrs))
  | .list l => .list (mapObjectsList f l)
  | .none => .none
  | .str s => .str s
  | .bool b => .bool b
  | .int i => .int i
  | .float f => .float f
  | .enum e x => .enum e x
  | .dt k => .dt k
  | .floats l => .floats l
  | .coords l => .coords l
  | .whens l => .whens l
  | .items l => .items l
termination_by structural v => v
/-- The attributes. -/
def mapObjectsAttrs (f : C → List (Str × Val C F) → List (Str × Val C F)) :
    List (Str × Val C F) → List (Str × Val C F)
  | [] => []
  | (a, v) :: r => (a, mapObjects f v) :: mapObjectsAttrs f r
termination_by structural l => l
/-- The members of a list. -/
def mapObjectsList (f : C → List (Str × Val C F) → List (Str × Val C F)) : List (Val C F) → List (Val C F)
  | [] => []
  | v :: r => mapObjects f v :: mapObjectsList f r
termination_by structural l => l
end

/-- The class `d` is `c` or inherits from it. -/
def Inherits (L : Lib C) (d c : C) : Prop := c ∈ (L.info d).mro

instance (L : Lib C) (d c : C) : Decidable (Inherits L d c) := inferInstanceAs (Decidable (c ∈ (L.info d).mro))

/-- The object without the attribute `a`, which is removed from all objects in it
whose class is or inherits from `c`. -/
def forget (L : Lib C) (c : C) (a : Str) : Val C F → Val C F :=
  mapObjects fun d attrs => if Inherits L d c then attrs.filter (fun p => decide (p.1 ≠ a)) else attrs

/-- The attributes that a `__bool__` method looks at. -/
def boolAttrs : BoolRule → List Str
  | .allTruthy l | .anyTruthy l | .allNotNone l | .anyNotNone l => l
  | .anyElem a => [a]
  | .always | .geometry => []

/-- The attributes that the library looks at by name: in the `geometry` properties, in
constructors that check their arguments, and when a `KML` or a `Track` is written. -/
def builtin : List Str :=
  [s% "kml_coordinates", s% "coords", s% "kml_geometry", s% "outer_boundary", s% "inner_boundaries",
   s% "kml_geometries", s% "track_items", s% "tracks", s% "longitude", s% "latitude", s% "altitude",
   s% "location", s% "id", s% "whens", s% "angles", s% "features"]

/-- The attribute of `it` is new for the class `c` and the classes that inherit from
it: no parameter of a constructor, not registered, not used in a `__bool__` method.
The constructors accept further keyword arguments. -/
structure NewAttr (L : Lib C) (c : C) (it : Item C) : Prop where
  builtin : it.attr ∉ builtin
  kwargs : ∀ d, Inherits L d c → (L.info d).kwargs = true
  known : ∀ d, Inherits L d c → it.attr ∉ specialArgs (L.info d).special ++ (L.info d).slots.map Prod.fst
  items : ∀ d, Inherits L d c → ∀ i ∈ L.itemsOf d, i.attr ≠ it.attr
  bool : ∀ d, Inherits L d c → it.attr ∉ boolAttrs (L.info d).bool

/-- A child of `e`, or a child of a child, and so on, or `e` itself. -/
inductive Below : Xml → Xml → Prop where
  | self {e} : Below e e
  | kid {e k x} : k ∈ e.kids → Below x k → Below x e

end Spec
end Verif
