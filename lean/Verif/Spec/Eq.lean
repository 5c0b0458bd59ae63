import Verif.Eq
import Verif.Spec.Cycle
import Verif.Spec.Typing
import Verif.Spec.Lists

/-!
# What equality is meant to be
-/

namespace Verif.Spec

variable {F : Type} [PyExt F] [PyClose F]

/-- The attributes that the constructor of a class sets, `ns` and `name_spaces`
aside. -/
def names (c : Cls) : List Str :=
  (if (fastkml.info c).special = .track then [s% "track_items"] else []) ++
    (fastkml.info c).slots.map Prod.fst

/-- An object as its constructor leaves it: the attributes of the class and no others,
with values of the annotated types, and a dictionary of namespaces. -/
structure Regular (c : Cls) (ns : Str) (nss : NsMap) (attrs : List (Str × Val Cls F)) : Prop where
  typed : objOk fastkml dim23 c attrs = true
  layout : attrs.map Prod.fst = names c
  nss : (nss.map Prod.fst).Nodup

/-- The object and all objects in it are regular. -/
def AllRegular (v : Val Cls F) : Prop := Everywhere Regular v

/-- Equal dictionaries. -/
def SameMap (n m : NsMap) : Prop := ∀ k, dget k n = dget k m

/-- The numbers are not NaN. -/
def Numeric : Val Cls F → Prop
  | .float f => PyExt.isNaN f = false
  | .floats l => ∀ f ∈ l, PyExt.isNaN f = false
  | .coords l => ∀ p ∈ l, ∀ f ∈ p, PyExt.isNaN f = false
  | .items l => ∀ r ∈ l, (∀ f ∈ r.coord, PyExt.isNaN f = false) ∧
      ∀ a, r.angle = some a → PyExt.isNaN a.1 = false ∧ PyExt.isNaN a.2.1 = false ∧ PyExt.isNaN a.2.2 = false
  | _ => True

/-- No NaN anywhere. -/
def NoNaN (v : Val Cls F) : Prop := ∀ w, Inside w v → Numeric w

/-- Coordinates that are close component by component. -/
def ClosePt (p q : Pt F) : Prop := All2 (fun f g => PyClose.close f g = true) p q

/-- Lines that are close point by point. -/
def CloseLine (l m : List (Pt F)) : Prop := All2 ClosePt l m

/-- Geometries of the same type with close coordinates. -/
inductive Close : Geo F → Geo F → Prop where
  | point {p q} : ClosePt p q → Close (.point p) (.point q)
  | lineString {l m} : CloseLine l m → Close (.lineString l) (.lineString m)
  | linearRing {l m} : CloseLine l m → Close (.linearRing l) (.linearRing m)
  | polygon {s t hs is} : CloseLine s t → All2 CloseLine hs is → Close (.polygon s hs) (.polygon t is)

/-- Both objects have no geometry, or both have one, neither is empty, and they are
close. -/
def SameGeometry (v w : Val Cls F) : Prop :=
  (geometry fastkml v = .ok none ∧ geometry fastkml w = .ok none) ∨
  ∃ g h, geometry fastkml v = .ok (some g) ∧ geometry fastkml w = .ok (some h) ∧
    g.nonEmpty = true ∧ h.nonEmpty = true ∧ Close g h

end Verif.Spec
