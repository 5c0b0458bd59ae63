import Verif.Spec.Moments
import Verif.Spec.Resaved
import Verif.Spec.Said
import Verif.Spec.Coords

/-!
# Ordinary documents: specification

Conditions on the text of a document alone, without reference to what fastkml or the
libraries it uses make of it.
-/

namespace Verif.Spec

variable {F : Type} [PyExt F]

/-- A decimal number, in scientific notation or not. -/
def Decimal (s : Str) : Prop := ∃ neg m k e, DecimalText neg m k e s

/-- The law that theorems about decimal numbers may assume: `float` does not read one as
`nan`. -/
class DecimalNumbers (F : Type) [PyExt F] : Prop where
  not_nan : ∀ s (f : F), Decimal s → PyExt.parse s = some f → PyExt.isNaN f = false

/-- What is required of a text of a simple type besides validity:
* numbers are decimal and of moderate size;
* times are years, months, days or points in time with at most microseconds; the year has
  four digits;
* names, media types and email addresses have no white space around them that only Python
  takes for it. -/
structure PlainText (t : QN) (s : Str) : Prop where
  number : t = .q .xs (s% "double") ∨ t = .q .xs (s% "float") → Padded (RangeText (-9007199254740992) 9007199254740992) s
  time : t = .q .kml (s% "dateTimeType") → ∃ k, TimeText s k ∧ FullYear k
  name : t ∈ [.q .xs (s% "ID"), .q .xs (s% "NCName"), .q .atom (s% "atomMediaType"), .q .atom (s% "atomEmailAddress")] →
    strip s ≠ [] → lexOk t (strip s)

/-- The text is a value of the simple type, and plain. -/
def plainOk (t : QN) (s : Str) : Prop := lexOk t s ∧ PlainText t s

/-- The text of coordinates: nothing, or tuples of two or three numbers. -/
def CoordinatesText (s : Str) : Prop :=
  Blank s ∨ ∃ sp : Spaced, sp.Ok ∧ s = sp.text ∧ ∀ t ∈ sp.tuples, (t.length = 2 ∨ t.length = 3) ∧ ∀ w ∈ t, Decimal w

/-- What is required of one element of an ordinary document, besides validity:
* coordinates are tuples of two or three numbers;
* the positions of tracks have two or three numbers, and their angles at most three;
* a track has as many times as positions and no more angles than positions;
* levels of detail are integers, and so is the length of an Atom link;
* the type of a simple field is one of those of KML;
* a schema has an id;
* fastkml knows no times in the namespace of Google's extensions;
* a document has no schemas or no features, and a file no control element or no feature. -/
structure OrdinaryNode (d : Xml) : Prop where
  coordinates : d.tag = tagOf (.q .kml (s% "coordinates")) → ∀ s, d.text = some s → CoordinatesText s
  times : d.tag = tagOf (.q .gx (s% "Track")) → ∀ k ∈ childrenNamed d (.q .kml (s% "when")), k.text ≠ none
  position : d.tag = tagOf (.q .gx (s% "coord")) → ∃ s, d.text = some s ∧
    ((splitWs s).length = 2 ∨ (splitWs s).length = 3) ∧ ∀ w ∈ splitWs s, Decimal w
  angle : d.tag = tagOf (.q .gx (s% "angles")) → ∀ s, d.text = some s → (splitWs s).length ≤ 3 ∧ ∀ w ∈ splitWs s, Decimal w
  rows : d.tag = tagOf (.q .gx (s% "Track")) →
    (childrenNamed d (.q .kml (s% "when"))).length = (childrenNamed d (.q .gx (s% "coord"))).length ∧
    (childrenNamed d (.q .gx (s% "angles"))).length ≤ (childrenNamed d (.q .gx (s% "coord"))).length
  lod : d.tag = tagOf (.q .kml (s% "Lod")) → ∀ k ∈ d.kids, ∀ s, trimmed k.text = some s → ∃ i, IntegerText i s
  link : d.tag = tagOf (.q .atom (s% "link")) → ∀ s, d.get (s% "length") = some s → s ≠ [] → ∃ i, IntegerText i s
  field : d.tag = tagOf (.q .kml (s% "SimpleField")) → ∀ s, d.get (s% "type") = some s → s ≠ [] →
    s ∈ [s% "string", s% "int", s% "uint", s% "short", s% "ushort", s% "float", s% "double", s% "bool"]
  schema : d.tag = tagOf (.q .kml (s% "Schema")) → ∃ s, d.get (s% "id") = some s ∧ strip s ≠ []
  gxTimes : d.tag ≠ tagOf (.q .gx (s% "TimeStamp")) ∧ d.tag ≠ tagOf (.q .gx (s% "TimeSpan"))
  document : d.tag = tagOf (.q .kml (s% "Document")) → childrenNamed d (.q .kml (s% "Schema")) = [] ∨
    ∀ k ∈ d.kids, ∀ n ∈ memberNames, k.tag ≠ tagOf (.q .kml n)
  root : d.tag = tagOf (.q .kml (s% "kml")) → childrenNamed d (.q .kml (s% "NetworkLinkControl")) = [] ∨
    ∀ k ∈ d.kids, ∀ n ∈ memberNames, n ≠ s% "NetworkLinkControl" → k.tag ≠ tagOf (.q .kml n)

/-- The document is valid for the type and ordinary at all depths. -/
structure Ordinary (T : QN) (e : Xml) : Prop where
  valid : Valid plainOk T e
  nodes : ∀ d, Sub e d → OrdinaryNode d

end Verif.Spec
