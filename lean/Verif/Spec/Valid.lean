import Verif.Spec.Xsd
import Verif.Spec.Canonical
import Verif.Classes

/-!
# Objects whose output is valid: specification
-/

namespace Verif.Spec

variable {F : Type} [PyExt F]

/-- The namespace of the schema that declares the element of a class. -/
def xnsOf (c : Cls) : XNs :=
  if sameStr (fastkml.info c).nsid (s% "kml") then .kml
  else if sameStr (fastkml.info c).nsid (s% "gx") then .gx
  else if sameStr (fastkml.info c).nsid (s% "atom") then .atom
  else .xs

/-- The name of the element of a class. -/
def elemName (c : Cls) : QN := .q (xnsOf c) (fastkml.info c).tag

/-- The type the schemas give to the element of a class. -/
def elemType (c : Cls) : Option QN := (elemDecl (elemName c)).bind (·.type)

/-- The type of the `Icon` of an `IconStyle`. -/
def basicLink : QN := .q .kml (s% "BasicLinkType")

/-- The class of an object. -/
def classOf : Val Cls F → Option Cls
  | .obj c _ _ _ => some c
  | _ => none

/-- The members of a list that are not empty. -/
def members (a : Str) (as : List (Str × Val Cls F)) : List (Val Cls F) :=
  match attr a as with
  | .list l => l.filter (nonEmpty fastkml)
  | _ => []

/-- The lists of different things are in the order of the schema. -/
def InOrder (c : Cls) (as : List (Str × Val Cls F)) : Prop :=
  match c with
  -- at most one style of each kind
  | .Style => ((members (s% "styles") as).filterMap classOf).Sublist
      [.IconStyle, .LabelStyle, .LineStyle, .PolyStyle, .BalloonStyle]
  -- untyped data first
  | .ExtendedData => ∃ l m, members (s% "elements") as = l ++ m ∧
      (∀ w ∈ l, classOf w = some .Data) ∧ ∀ w ∈ m, classOf w = some .SchemaData
  -- fastkml writes features before schemata, the schema wants them after
  | .Document => members (s% "features") as = [] ∨ members (s% "schemata") as = []
  -- the control element first, and one feature
  | .KML => ∃ l m, members (s% "features") as = l ++ m ∧ l.length ≤ 1 ∧ m.length ≤ 1 ∧
      (∀ w ∈ l, classOf w = some .NetworkLinkControl) ∧ ∀ w ∈ m, classOf w ≠ some .NetworkLinkControl
  | _ => True

/-- The attributes of an icon other than `id`, `target_id` and `href`. -/
def linkExtras : List Str := [s% "refresh_mode", s% "refresh_interval", s% "view_refresh_mode", s% "view_refresh_time",
  s% "view_bound_scale", s% "view_format", s% "http_query"]

/-- Only the `href` of an icon is written. -/
def OnlyHref (o : Opts) (as : List (Str × Val Cls F)) : Prop :=
  o.verbosity ≠ .verbose ∧ ∀ a ∈ linkExtras, attr a as = .none

/-- The object is in the namespaces of the schemas. -/
structure Placed (c : Cls) (ns : Str) (nss : NsMap) (as : List (Str × Val Cls F)) : Prop where
  /-- the object is in the namespace of its class -/
  ns : ns = uri (xnsOf c)
  /-- the prefixes of altitude modes and times are mapped to the namespaces of KML -/
  kml : nsGet nss (s% "kml") = uri .kml
  gx : nsGet nss (s% "gx") = uri .gx
  /-- the rows of a track have a time -/
  whens : c = .Track → ∀ r ∈ rows as, r.when_ ≠ none

/-- All objects in `v` are in the namespaces of the schemas. -/
def AllPlaced (v : Val Cls F) : Prop := Everywhere Placed v

/-- The conditions on one object. -/
structure Schematic (o : Opts) (c : Cls) (ns : Str) (nss : NsMap) (as : List (Str × Val Cls F)) : Prop
    extends Placed c ns nss as where
  /-- the class has an element in the schemas (it is not an abstract base class) -/
  declared : elemType c ≠ none
  /-- lists are in order -/
  order : InOrder c as
  /-- the icon of an icon style has only a target -/
  icon : c = .IconStyle → ∀ d ns nss bs, attr (s% "icon") as = .obj d ns nss bs → OnlyHref o bs

/-- All objects in `v` meet the conditions. -/
def AllSchematic (o : Opts) (v : Val Cls F) : Prop := Everywhere (Schematic o) v

end Verif.Spec
