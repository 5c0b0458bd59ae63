import Verif.Xml

/-!
# XML schemas

The part of XML Schema that the schemas of KML use: element declarations with
substitution groups, complex types with a sequence of particles and attributes, derived
by extension, and enumerations.
-/

namespace Verif

/-- The namespaces of the schemas; `xs` has the built-in types. -/
inductive XNs where
  | kml | gx | atom | xal | xs
deriving DecidableEq, Repr

/-- A qualified name. -/
inductive QN where
  | q (ns : XNs) (name : Str)
deriving DecidableEq, Repr

/-- An alternative of a particle: a reference to an element declaration, or a local
declaration with its own type. -/
structure XAlt where
  name : QN
  type : Option QN
deriving DecidableEq, Repr

/-- A particle: one of the alternatives, at least `min` times (0 or 1), and at most once
unless `unb`. -/
structure XPart where
  alts : List XAlt
  min : Nat
  unb : Bool
deriving DecidableEq, Repr

/-- An attribute declaration. -/
structure XAttr where
  name : Str
  type : Option QN
  required : Bool
  dflt : Option Str
deriving DecidableEq, Repr

/-- A complex type.  With `text` the content is a text, otherwise the particles, one
after the other, after those of the base. -/
structure XType where
  name : QN
  base : Option QN
  particles : List XPart
  attrs : List XAttr
  text : Bool
deriving DecidableEq, Repr

/-- An element declaration. -/
structure XElem where
  name : QN
  type : Option QN
  subst : Option QN
  abstract : Bool
  dflt : Option Str
deriving DecidableEq, Repr

/-- A simple type with a list of values. -/
structure XEnum where
  name : QN
  values : List Str
deriving DecidableEq, Repr

end Verif
