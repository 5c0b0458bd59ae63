import Verif.Spec.Accepted
import Verif.Spec.Reopen
import Verif.Spec.Tracks

/-!
# Saving valid documents: specification

What is required of a valid document, besides its validity, for the document that is saved
after opening it to be valid again.
-/

namespace Verif.Spec

variable {F : Type} [PyExt F]

/-- The zone is at most 14 hours from UTC. -/
def NearZone (k : KmlDateTime) : Prop := ∀ d t o, k.dt = .dt d t → t.off = some o → -840 ≤ o ∧ o ≤ 840

/-- The value of the simple type can be written again:
* a number is a decimal number of moderate size, not infinite and not `NaN`, which Python
  writes as `inf` and `nan`;
* the year of a time without a day has four digits, and the zone as it is read is one that
  XML Schema has;
* a name, media type or email address is still one without what Python takes for white
  space around it. -/
structure Repeatable (F : Type) [PyExt F] (t : QN) (s : Str) : Prop where
  number : t = .q .xs (s% "double") ∨ t = .q .xs (s% "float") → Padded (RangeText (-9007199254740992) 9007199254740992) s
  time : t = .q .kml (s% "dateTimeType") → ∀ k, KmlDateTime.parse (PyExt.arrowGet F) s = some k ∨
    KmlDateTime.parse (PyExt.arrowGet F) (strip s) = some k → FullYear k ∧ NearZone k
  name : t ∈ [.q .xs (s% "ID"), .q .xs (s% "NCName"), .q .atom (s% "atomMediaType"), .q .atom (s% "atomEmailAddress")] →
    strip s ≠ [] → lexOk t (strip s)

/-- The text is a value of the simple type that can be written again. -/
def keptOk (F : Type) [PyExt F] (t : QN) (s : Str) : Prop := lexOk t s ∧ Repeatable F t s

/-- The law that theorems about numbers in saved documents assume: what `str` prints of a
number that was read from a decimal number between two integers (up to `2^53`) is a decimal
number between these. -/
class KeepsRanges (F : Type) [PyExt F] : Prop where
  repr_between : ∀ (lo hi : Int) (s : Str) (f : F), -9007199254740992 ≤ lo → hi ≤ 9007199254740992 →
    Padded (RangeText lo hi) s → PyExt.parse s = some f → RangeText lo hi (PyExt.repr f)

/-- The content of one element comes back in the order of the schemas:
* every position of a track has a time;
* fastkml writes the schemas of a document after its features and the control element of
  a file after its feature, so there is only one of the two. -/
structure Orderly (F : Type) [PyExt F] (N : NsMap) (d : Xml) : Prop where
  track : d.tag = tagOf (.q .gx (s% "Track")) → (positionsOf (F := F) N d).length ≤ (timesOf F N d).length
  document : d.tag = tagOf (.q .kml (s% "Document")) → childrenNamed d (.q .kml (s% "Schema")) = [] ∨
    ∀ k ∈ d.kids, ∀ n ∈ memberNames, k.tag ≠ tagOf (.q .kml n)
  root : d.tag = tagOf (.q .kml (s% "kml")) → childrenNamed d (.q .kml (s% "NetworkLinkControl")) = [] ∨
    ∀ k ∈ d.kids, ∀ n ∈ memberNames, n ≠ s% "NetworkLinkControl" → k.tag ≠ tagOf (.q .kml n)

end Verif.Spec
