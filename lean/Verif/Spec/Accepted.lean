import Verif.Spec.Content
import Verif.Spec.Simple

/-!
# Well-formed content: specification

Which texts of an element can be read at all: numbers are numbers, times are times,
enumerated values are among those declared.
-/

namespace Verif.Spec

variable {F : Type} [PyExt F]

/-- The text is a value of the kind. -/
def Reads (F : Type) [PyExt F] : Kind → Str → Prop
  | .text, _ => True
  | .bool, s => s ∈ [s% "1", s% "true", s% "0", s% "false"]
  | .int, s => ∃ i, intParse s = some i
  | .float, s => ∃ f : F, PyExt.parse s = some f
  | .time, s => ∃ k, KmlDateTime.parse (PyExt.arrowGet F) s = some k
  | .choice l, s => s ∈ l

/-- What is required of the text of a child or XML attribute, given the class of the
parent, the name and the type. -/
abbrev TextRule := Cls → Str → Option QN → Str → Prop

/-- The text is a value of the kind that is declared. -/
def WellFormed (F : Type) [PyExt F] : TextRule := fun c n t s => Reads F (kindOf c n t) s

/-- The same, only where validity does not imply it: for floats and times, and where
fastkml deviates from the schemas. -/
def WellFormedNumber (F : Type) [PyExt F] : TextRule := fun c n t s =>
  match kindOf c n t with
  | .float | .time => Reads F (kindOf c n t) s
  | _ => (c = .Lod ∨ c = .atom_Link ∨ c = .SimpleField) → Reads F (kindOf c n t) s

/-- The same, only for times, and where fastkml deviates from the schemas. -/
def WellFormedTime (F : Type) [PyExt F] : TextRule := fun c n t s =>
  match kindOf c n t with
  | .time => Reads F (kindOf c n t) s
  | _ => (c = .Lod ∨ c = .atom_Link ∨ c = .SimpleField) → Reads F (kindOf c n t) s

/-- The law that theorems about numbers in documents may assume: `float` reads everything
that the schemas call a `double`, with whitespace around it. -/
class ReadsDoubles (F : Type) [PyExt F] : Prop where
  parse_double : ∀ s, Padded DoubleText s → ∃ f : F, PyExt.parse s = some f

/-- The children with a name. -/
def childrenNamed (e : Xml) (q : QN) : List Xml := e.kids.filter fun k => decide (k.tag = tagOf q)

/-- The rows of a track: every time is a time, every position has two or three numbers,
every angle at most three, and there are as many positions as times and angles. -/
structure RowsFit (F : Type) [PyExt F] (e : Xml) : Prop where
  times : ∀ k ∈ childrenNamed e (.q .kml (s% "when")), ∃ s, k.text = some s ∧ Reads F .time s
  positions : ∀ k ∈ childrenNamed e (.q .gx (s% "coord")), ∃ s, k.text = some s ∧
    ∃ p : Pt F, floatsOf (splitWs s) = some p ∧ (p.length = 2 ∨ p.length = 3)
  angles : ∀ k ∈ childrenNamed e (.q .gx (s% "angles")), ∀ s, k.text = some s →
    ∃ p : Pt F, floatsOf (splitWs s) = some p ∧ p.length ≤ 3
  enough : (childrenNamed e (.q .kml (s% "when"))).length ≤ (childrenNamed e (.q .gx (s% "coord"))).length ∧
    (childrenNamed e (.q .gx (s% "angles"))).length ≤ (childrenNamed e (.q .gx (s% "coord"))).length

/-- The texts of the element, an element of type `T` read as class `c`, obey the rule,
given for each child what this means for it. -/
structure FitStep (F : Type) [PyExt F] (R : TextRule) (c : Cls) (T : QN) (e : Xml)
    (ks : List (Xml × (Cls → QN → Prop))) : Prop where
  /-- The XML attributes, with or without a namespace. -/
  attributes : ∀ a ∈ typeAttrs 8 T, a.name ∉ unsupportedAttrs c → ∀ p, (p = [] ∨ ∃ x, p = uri x) →
    ∀ s, e.get (p ++ a.name) = some s → s ≠ [] → R c a.name a.type s
  /-- Coordinates are tuples of two or three numbers. -/
  coords : c = .Coordinates → ∀ s, e.text = some s →
    ∃ l : List (Pt F), tuplesOf (latlons s) = some l ∧ ∀ p ∈ l, p.length = 2 ∨ p.length = 3
  /-- Schemas have an id. -/
  schema : c = .Schema → ∃ s, e.get (s% "id") = some s ∧ s ≠ []
  /-- The rows of tracks match. -/
  rows : c = .Track → RowsFit F e
  /-- The children that are supported. -/
  children : ∀ k ∈ ks, ∀ q t, k.1.tag = tagOf q → (∃ p ∈ partsOf 8 T, (q, some t) ∈ p.elems) →
    q ∉ unsupported c → q ∉ rowNames c →
    match classFor q with
    | some d => k.2 d t
    | none => ∀ s, trimmed k.1.text = some s → R c q.name (some t) s

mutual
/-- The texts of the element obey the rule at all depths. -/
def Fit (F : Type) [PyExt F] (R : TextRule) : Xml → Cls → QN → Prop
  | .mk tag as tx ks, c, T => FitStep F R c T (.mk tag as tx ks) (fitKids F R ks)
termination_by structural e => e
/-- `Fit` of the children. -/
def fitKids (F : Type) [PyExt F] (R : TextRule) : List Xml → List (Xml × (Cls → QN → Prop))
  | [] => []
  | k :: ks => (k, fun c T => Fit F R k c T) :: fitKids F R ks
termination_by structural l => l
end

end Verif.Spec
