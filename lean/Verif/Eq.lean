import Verif.Find

/-!
# Python equality of objects

`_XMLObject.__eq__`, the `__eq__` of `Point`, `LineString` and `Polygon`, and `==` of
the values they compare.  Containers compare their members with `==` only; the
shortcut of Python's dictionaries and lists for identical members, which matters for
NaN only, is not modelled.  Lists and tuples of coordinates are not distinguished.
-/

namespace Verif

/-- `math.isclose(f, g)`, with which pygeoif compares coordinates. -/
class PyClose (F : Type) where
  close : F → F → Bool

/-- The laws of `math.isclose` that theorems may assume. -/
class LawfulClose (F : Type) [PyExt F] [PyClose F] : Prop where
  close_refl : ∀ f : F, PyExt.isNaN f = false → PyClose.close f f = true
  close_symm : ∀ f g : F, PyClose.close f g = PyClose.close g f

variable {F : Type} [PyExt F] [PyClose F]

/-- Pairwise comparison of sequences; sequences of different length are different. -/
def eqAll {α : Type} (eq : α → α → Bool) : List α → List α → Bool
  | [], [] => true
  | a :: as, b :: bs => eq a b && eqAll eq as bs
  | _, _ => false

/-- `pygeoif.functions.compare_coordinates` for coordinate tuples. -/
def ptClose : Pt F → Pt F → Bool := eqAll PyClose.close

/-- `==` of pygeoif geometries: not empty, same type, coordinates close.  Only the
types that `__eq__` of a fastkml class compares; a polygon's coordinates are those of
its rings. -/
def geoEq (g h : Geo F) : Bool :=
  g.nonEmpty && h.nonEmpty && match g, h with
  | .point p, .point q => ptClose p q
  | .lineString l, .lineString m => eqAll ptClose l m
  | .linearRing l, .linearRing m => eqAll ptClose l m
  | .polygon s hs, .polygon t is => eqAll ptClose s t && eqAll (eqAll ptClose) hs is
  | _, _ => false

/-- `==` of optional geometries. -/
def optGeoEq : Option (Geo F) → Option (Geo F) → Bool
  | none, none => true
  | some g, some h => geoEq g h
  | _, _ => false

/-- A number: `bool` is a subclass of `int`. -/
def Val.num : Val Cls F → Option (Int ⊕ F)
  | .bool b => some (.inl (if b then 1 else 0))
  | .int i => some (.inl i)
  | .float f => some (.inr f)
  | _ => Option.none

/-- `==` of numbers.  An integer is compared with a float after conversion. -/
def numEq : Int ⊕ F → Int ⊕ F → Bool
  | .inl i, .inl j => decide (i = j)
  | .inl i, .inr g => PyExt.beq (PyExt.ofInt i) g
  | .inr f, .inl j => PyExt.beq f (PyExt.ofInt j)
  | .inr f, .inr g => PyExt.beq f g

/-- `==` of the members of a list of times: `()` or `KmlDateTime`
(fastkml/times.py:175-181). -/
def whenEq : Option KmlDateTime → Option KmlDateTime → Bool
  | none, none => true
  | some k, some l => k.eq l
  | _, _ => false

/-- `==` of `Angle`, a dataclass (fastkml/gx.py:127-139). -/
def angleEq : Option (F × F × F) → Option (F × F × F) → Bool
  | none, none => true
  | some a, some b => PyExt.beq a.1 b.1 && PyExt.beq a.2.1 b.2.1 && PyExt.beq a.2.2 b.2.2
  | _, _ => false

/-- `==` of `TrackItem`, a dataclass (fastkml/gx.py:155-161). -/
def rowEq (r s : TrackItem F) : Bool :=
  whenEq r.when_ s.when_ && geoEq (.point r.coord) (.point s.coord) && angleEq r.angle s.angle

/-- `==` of values that are neither lists of values nor objects. -/
def plainEq (a b : Val Cls F) : Bool :=
  match a.num, b.num with
  | some x, some y => numEq x y
  | some _, none => false
  | none, some _ => false
  | none, none => match a, b with
    | .none, .none => true
    | .str s, .str t => decide (s = t)
    | .enum e x, .enum f y => decide (e = f) && decide (x = y)
    | .dt k, .dt l => k.eq l
    | .floats l, .floats m => eqAll PyExt.beq l m
    | .coords l, .coords m => eqAll ptBeq l m
    | .whens l, .whens m => eqAll whenEq l m
    | .items l, .items m => eqAll rowEq l m
    | _, _ => false

/-- `==` of the dictionaries of namespaces. -/
def nssEq (n m : NsMap) : Bool :=
  decide (n.length = m.length) && n.all fun p => decide (dget p.1 m = some p.2)

/-- An object: class, `ns`, `name_spaces` and attributes. -/
structure Inst (F : Type) where
  c : Cls
  ns : Str
  nss : NsMap
  attrs : List (Str × Val Cls F)

/-- The object as a value. -/
def Inst.val (x : Inst F) : Val Cls F := .obj x.c x.ns x.nss x.attrs

/-- `self.__kwarg_keys` (fastkml/base.py:88): the arguments that the constructor of the
class does not know.  Attributes that were set later are not distinguished from
these. -/
def Inst.extraKeys (x : Inst F) : List Str :=
  (x.attrs.map Prod.fst).filter fun a =>
    decide (a ∉ specialArgs (fastkml.info x.c).special ++ (fastkml.info x.c).slots.map Prod.fst)

/-- The keys of `self._get_splat()` (fastkml/base.py:249-263). -/
def Inst.splat (x : Inst F) : List Str :=
  x.extraKeys.filter fun a => match dget a x.attrs with
    | some v => v.notNone
    | none => false

/-- How `__eq__` is defined: the default, or by comparing attributes with instances
of a class. -/
inductive EqRule where
  /-- fastkml/base.py:120-135 -/
  | default
  /-- compares the attributes, `geometry` and those of `xml_attrs` if the other is an
  instance of the class -/
  | fields (c : Cls) (attrs : List Str)
deriving DecidableEq

/-- The `__eq__` that a class defines or inherits. -/
def eqRule (c : Cls) : EqRule :=
  -- fastkml/geometry.py:467-480
  if .Point ∈ (fastkml.info c).mro then .fields .Point [s% "extrude", s% "altitude_mode"]
  -- fastkml/geometry.py:634-647
  else if .LineString ∈ (fastkml.info c).mro then .fields .LineString [s% "extrude", s% "tessellate"]
  -- fastkml/geometry.py:1118-1131
  else if .Polygon ∈ (fastkml.info c).mro then .fields .Polygon [s% "extrude", s% "tessellate"]
  else .default

/-- `getattr(x, a) == getattr(y, a)`; a missing attribute raises `AttributeError`. -/
def attrEq (E : Val Cls F → Val Cls F → Except Err Bool) (x y : Inst F) (a : Str) : Except Err Bool :=
  match dget a x.attrs, dget a y.attrs with
  | some v, some w => E v w
  | _, _ => .error .illTyped

/-- `self.geometry == other.geometry`. -/
def geometryEq (x y : Inst F) : Except Err Bool :=
  match geometry fastkml x.val, geometry fastkml y.val with
  | .error e, _ => .error e
  | _, .error e => .error e
  | .ok g, .ok h => .ok (optGeoEq g h)

/-- An entry of `self.__dict__` compared with that of `other.__dict__`. -/
def dictEntry (E : Val Cls F → Val Cls F → Except Err Bool) (y : Inst F) (p : Str × Val Cls F) :
    Except Err Bool :=
  match dget p.1 y.attrs with
  | some w => E p.2 w
  | none => .ok false

/-- `self.__dict__ == other.__dict__`: as many entries, and every entry is in the
other.  `_XMLObject__kwarg_keys` is an entry that comes after `ns` and the extra
attributes; that it is compared at the end instead makes a difference only for which
exception is raised. -/
def dictEq (E : Val Cls F → Val Cls F → Except Err Bool) (x y : Inst F) : Except Err Bool :=
  if x.attrs.length ≠ y.attrs.length then .ok false
  else allE ((dictOrder x.c (.ok (nssEq x.nss y.nss))
    (.ok (decide (x.ns = y.ns)))
    (x.attrs.map fun p => (p.1, dictEntry E y p))).map (·.2) ++ [.ok (decide (x.extraKeys = y.extraKeys))])

/-- `x.__eq__(y)` for an object `y`. -/
def methodEq (E : Val Cls F → Val Cls F → Except Err Bool) (x y : Inst F) : Except Err Bool :=
  match eqRule x.c with
  | .fields c as =>
    if c ∈ (fastkml.info y.c).mro then
      allE (as.map (attrEq E x y) ++
        [geometryEq x y,
         -- `xml_attrs`, a set (fastkml/geometry.py:98)
         .ok (decide (x.ns = y.ns)), .ok (nssEq x.nss y.nss),
         attrEq E x y (s% "id"), attrEq E x y (s% "target_id")] ++
        x.splat.map (attrEq E x y))
    else if x.c = y.c then dictEq E x y else .ok false
  | .default => if x.c = y.c then dictEq E x y else .ok false

/-- `x == y` for objects: an instance of a proper subclass is asked first. -/
def instEq (E : Val Cls F → Val Cls F → Except Err Bool) (x y : Inst F) : Except Err Bool :=
  if x.c ≠ y.c ∧ x.c ∈ (fastkml.info y.c).mro then methodEq E y x else methodEq E x y

/-- `==` of lists. -/
def listEq (E : Val Cls F → Val Cls F → Except Err Bool) (l m : List (Val Cls F)) : Except Err Bool :=
  if l.length ≠ m.length then .ok false
  else allE ((l.zip m).map fun p => E p.1 p.2)

/-- `a == b`, given `==` for the parts. -/
def eqStep (E : Val Cls F → Val Cls F → Except Err Bool) (a b : Val Cls F) : Except Err Bool :=
  match a, b with
  | .obj c ns nss as, .obj d ns' nss' bs => instEq E ⟨c, ns, nss, as⟩ ⟨d, ns', nss', bs⟩
  | .list l, .list m => listEq E l m
  | a, b => .ok (plainEq a b)

/-- `a == b` to a recursion depth. -/
def eqUpTo : Nat → Val Cls F → Val Cls F → Except Err Bool
  | 0, _, _ => .error .illTyped
  | k + 1, a, b => eqStep (eqUpTo k) a b

/-- `a == b`.  Values are finite, so that the recursion ends; `pyEq_eq` is the equation
of the Python functions. -/
def pyEq (a b : Val Cls F) : Except Err Bool := eqUpTo (a.depth + b.depth) a b

end Verif
