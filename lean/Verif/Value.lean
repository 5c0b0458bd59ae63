import Verif.Geoif
import Verif.Xml

/-!
# Python values, classes and the registry

`C` is the type of classes (for fastkml itself: `Verif.Cls` in
`Verif/Classes.lean`), `F` the type of floats.
-/

namespace Verif

/-- The exceptions the modelled code can raise. -/
inductive Err where
  /-- `KMLParseError` (fastkml/exceptions.py:23) -/
  | parseError
  /-- `KMLWriteError` (fastkml/exceptions.py:27) -/
  | writeError
  /-- `KMLSchemaError` (fastkml/exceptions.py:31) -/
  | schemaError
  /-- `GeometryError` (fastkml/exceptions.py:36) -/
  | geometryError
  | valueError
  | typeError
  /-- `pygeoif.exceptions.DimensionError` -/
  | dimensionError
  /-- an ill-typed use the model does not describe further (Python raises
  `AttributeError`/`TypeError` or lxml rejects the value) -/
  | illTyped
deriving DecidableEq, Repr

/-- `gx.TrackItem` (fastkml/gx.py:155-161).  `when = none` is the fill value
`()` of `zip_longest` (fastkml/gx.py:268); `angle = none` is `None`, else the
three components of `gx.Angle` (fastkml/gx.py:137-139). -/
structure TrackItem (F : Type) where
  when_ : Option KmlDateTime
  coord : Pt F
  angle : Option (F × F × F)
deriving DecidableEq

/-- A namespace mapping: prefix to `{uri}` (or empty). -/
abbrev NsMap := List (Str × Str)

/-- Python values.  `obj c ns nss attrs` is an instance of `_XMLObject`: class,
`self.ns`, `self.name_spaces` and the other instance attributes in order of
assignment. -/
inductive Val (C F : Type) where
  | none
  | str (s : Str)
  | bool (b : Bool)
  | int (i : Int)
  | float (f : F)
  /-- an enum member, given by its value -/
  | enum (e : EnumId) (v : Str)
  | dt (k : KmlDateTime)
  /-- a tuple of floats -/
  | floats (l : List F)
  /-- a list or tuple of coordinate tuples -/
  | coords (l : List (Pt F))
  /-- a list or tuple of `KmlDateTime` (`none` is the tuple `()`, see `TrackItem`) -/
  | whens (l : List (Option KmlDateTime))
  /-- a list of `gx.TrackItem` -/
  | items (l : List (TrackItem F))
  | obj (c : C) (ns : Str) (nss : NsMap) (attrs : List (Str × Val C F))
  | list (l : List (Val C F))

/-- The members of `RegistryItem.classes` (fastkml/registry.py:92). -/
inductive PyType (C : Type) where
  | str | int | float | bool | tuple | lineType | kmlDateTime
  | enum (e : EnumId)
  | cls (c : C)
deriving DecidableEq, Repr

/-- The `get_kwarg` functions used in registrations
(fastkml/helpers.py:642-1293, fastkml/geometry.py:177-225). -/
inductive GetFn where
  | nodeText | subText | attrText | subBool | subInt | attrInt | subFloat | attrFloat
  | subEnum | attrEnum | subDt | subDtList | coordsList | xmlSub | xmlSubList | coordinates
deriving DecidableEq, Repr

/-- The `set_element` functions used in registrations
(fastkml/helpers.py:186-639, fastkml/geometry.py:137-174). -/
inductive SetFn where
  | nodeText | subText | attrText | subBool | subInt | attrInt | subFloat | attrFloat
  | subEnum | attrEnum | subDt | subDtList | coordsList | xmlSub | xmlSubList | coordinates
deriving DecidableEq, Repr

/-- The `default` of a registration.  A float default is given by its source
text. -/
inductive Dflt where
  | none | str (s : Str) | bool (b : Bool) | int (i : Int)
  | enum (e : EnumId) (v : Str)
  /-- `float(n / 10^d)`, the literal written in the source with `d` decimals -/
  | float (n : Int) (d : Nat)
  /-- a tuple of such floats (only fastkml/gx.py:416) -/
  | floats (l : List (Int × Nat))
deriving DecidableEq, Repr

/-- `RegistryItem` (fastkml/registry.py:71-97). -/
structure Item (C : Type) where
  nsIds : List Str
  classes : List (PyType C)
  attr : Str
  get : GetFn
  set : SetFn
  node : Str
  dflt : Dflt
deriving DecidableEq, Repr

/-- How a constructor stores an argument. -/
inductive Norm where
  /-- `self.x = x` -/
  | raw
  /-- `self.x = clean_string(x)` -/
  | clean
  /-- `self.x = x or ""` -/
  | orEmpty
  /-- `self.x = x or None` -/
  | orNone
  /-- `self.x = list(x) if x else []` -/
  | listOr
  /-- `self.x = list(x) if x is not None else []` -/
  | listNotNone
  /-- `self.x = [e for e in x if e] if x else []` -/
  | listTruthy
  /-- `self.x = x or []` (coordinates) -/
  | coordsOr
deriving DecidableEq, Repr

/-- How `__bool__` is defined. -/
inductive BoolRule where
  /-- no `__bool__`: always true -/
  | always
  /-- `bool(self.a) and bool(self.b) ...` -/
  | allTruthy (attrs : List Str)
  /-- `bool(self.a) or bool(self.b) ...` -/
  | anyTruthy (attrs : List Str)
  /-- all the attributes are not `None` -/
  | allNotNone (attrs : List Str)
  /-- some of the attributes is not `None` -/
  | anyNotNone (attrs : List Str)
  /-- `any(self.a)` for a list -/
  | anyElem (attr : Str)
  /-- `bool(self.geometry)` -/
  | geometry
deriving DecidableEq, Repr

/-- How the property `geometry` is defined. -/
inductive GeomKind where
  | none | point | lineString | linearRing | boundary | polygon | multi
  | track | multiTrack | location | model | placemark
deriving DecidableEq, Repr

/-- Constructors that do more than normalise their arguments. -/
inductive Special where
  | none
  /-- `Schema` (fastkml/data.py:208-253) -/
  | schema
  /-- `gx.Track` (fastkml/gx.py:204-280) -/
  | track
  /-- `Placemark` (fastkml/features.py:500-613) -/
  | placemark
  /-- `KML` overrides `etree_element` (fastkml/kml.py:155-197) -/
  | kml
deriving DecidableEq, Repr

/-- What the model needs to know about a class. -/
structure ClsInfo (C : Type) where
  /-- `cls.__mro__[:-1]` restricted to library classes, most derived first -/
  mro : List C
  /-- `cls.get_tag_name()` -/
  tag : Str
  /-- `cls._default_nsid` -/
  nsid : Str
  /-- the instance attributes set by the constructor from the argument of the
  same name, in order -/
  slots : List (Str × Norm)
  /-- does the constructor accept further keyword arguments (`**kwargs`) -/
  kwargs : Bool
  bool : BoolRule
  geom : GeomKind
  special : Special

/-- A registry: `Registry._registry` (fastkml/registry.py:122). -/
abbrev Registry (C : Type) := List (C × List (Item C))

/-- A library: classes with their behaviour, and the global registry. -/
structure Lib (C : Type) where
  info : C → ClsInfo C
  reg : Registry C

variable {C : Type} [DecidableEq C]

/-- `Registry.register` (fastkml/registry.py:137-156). -/
def Registry.register (r : Registry C) (c : C) (i : Item C) : Registry C :=
  dset c ((dget c r).getD [] ++ [i]) r

/-- `Registry.get` (fastkml/registry.py:158-179), given the class's `__mro__[:-1]`. -/
def Registry.get (r : Registry C) (mro : List C) : List (Item C) :=
  mro.reverse.foldl (fun items parent => items ++ (dget parent r).getD []) []

/-- `registry.get(cls)`. -/
def Lib.itemsOf (L : Lib C) (c : C) : List (Item C) := L.reg.get (L.info c).mro

end Verif
