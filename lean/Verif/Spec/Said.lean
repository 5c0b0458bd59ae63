import Verif.Spec.Content
import Verif.Spec.Scalars
import Verif.Spec.Tracks
import Verif.Spec.XmlText
import Verif.Spec.Reopen

/-!
# What an object may hold: specification

Every value of an object that is read from an element is there in the element, under the
name that the schemas and the naming rule of fastkml give it (`holder`, `textHolder`).
-/

namespace Verif.Spec

variable {F : Type} [PyExt F]

/-- The tag is the name `n` in a namespace that is known, or in none. -/
def KnownAs (N : NsMap) (n : Str) (tag : Str) : Prop := ∃ id, tag = nsGet N id ++ n

/-- The value is what the text `t` says. -/
def Tells (strict : Bool) (t : Str) : Val Cls F → Prop
  | .str u => u ≠ [] ∧ (u = t ∨ u = strip t)
  | .bool b => BoolText b t ∨
      (strict = false ∧ ((∃ u, BoolText b u ∧ SameWord u t) ∨ ∃ f : F, PyExt.parse (lower t) = some f ∧ PyExt.truthy f = b))
  | .int i => intParse t = some i
  | .float f => PyExt.parse t = some f
  | .enum e x => x ∈ EnumId.values e ∧ (x = t ∨ (strict = false ∧ SameWord x t))
  | .dt k => KmlDateTime.parse (PyExt.arrowGet F) t = some k
  | _ => False

/-- Nothing: `None`, the empty text, an empty list. -/
def Nothing : Val Cls F → Prop
  | .none => True
  | .str u => u = []
  | .coords l => l = []
  | .items l => l = []
  | .list l => l = []
  | _ => False

/-- The text `t` is the text of the element, of a child or of an XML attribute that
belongs to the attribute `a` of objects of class `c`. -/
def TextFor (N : NsMap) (c : Cls) (e : Xml) (a : Str) (t : Str) : Prop :=
  (textHolder c = some a ∧ trimmed e.text = some t) ∨
  ∃ n, holder c n = a ∧
    ((∃ q, KnownAs N n q ∧ given (dget q e.attrs) = some t) ∨ ∃ k ∈ e.kids, KnownAs N n k.tag ∧ trimmed k.text = some t)

/-- The value is an object that is read from a child that belongs to the attribute. -/
def FromChild (N : NsMap) (c : Cls) (ks : List (Xml × (Cls → Val Cls F → Prop))) (a : Str) (w : Val Cls F) : Prop :=
  ∃ k ∈ ks, ∃ d, holder c (elemName d).name = a ∧ KnownAs N (elemName d).name k.1.tag ∧ k.2 d w

/-- The value of the attribute `a` of an object of class `c` is in the element.  `ks` are
the children, each with what it means to be an object with nothing but what is in it. -/
inductive SaidAttr (strict : Bool) (N : NsMap) (c : Cls) (e : Xml) (ks : List (Xml × (Cls → Val Cls F → Prop))) (a : Str) :
    Val Cls F → Prop where
  | nothing {w} (h : Nothing w) : SaidAttr strict N c e ks a w
  | scalar {w t} (ht : TextFor N c e a t) (h : Tells strict t w) : SaidAttr strict N c e ks a w
  | object {w} (h : FromChild N c ks a w) : SaidAttr strict N c e ks a w
  | objects {l} (h : ∀ w ∈ l, FromChild N c ks a w) : SaidAttr strict N c e ks a (.list l)
  | coords {s l} (hc : c = .Coordinates) (ha : a = s% "coords") (hs : e.text = some s) (hl : tuplesOf (latlons s) = some l) :
      SaidAttr strict N c e ks a (.coords l)
  | rows {l} (hc : c = .Track) (ha : a = s% "track_items")
      (h : Rows ((timesOf F N e).map some) (positionsOf N e) (anglesOf N e) l) : SaidAttr strict N c e ks a (.items l)

mutual
/-- The value is an object of class `c` that holds nothing but what is in the element, at
all depths. -/
def Said (strict : Bool) (N : NsMap) : Xml → Cls → Val Cls F → Prop
  | .mk tag as tx ks, c, v => ∃ ns nss attrs, v = .obj c ns nss attrs ∧
      ∀ a w, (a, w) ∈ attrs → SaidAttr strict N c (.mk tag as tx ks) (saidKids strict N ks) a w
termination_by structural e => e
/-- `Said` of the children. -/
def saidKids (strict : Bool) (N : NsMap) : List Xml → List (Xml × (Cls → Val Cls F → Prop))
  | [] => []
  | k :: ks => (k, fun c v => Said strict N k c v) :: saidKids strict N ks
termination_by structural l => l
end

/-- The text `s` is the text of an element in `e` or the value of an XML attribute there,
perhaps without the white space around it. -/
def Occurs (e : Xml) (s : Str) : Prop :=
  ∃ d t, Sub e d ∧ (d.text = some t ∨ ∃ q, dget q d.attrs = some t) ∧ (s = t ∨ s = strip t)

/-- The texts in `e` can be written as XML text. -/
def LegalDoc (e : Xml) : Prop :=
  ∀ d, Sub e d → (∀ t, d.text = some t → LegalText t) ∧ ∀ q t, dget q d.attrs = some t → LegalValue t

/-- The elements that are times. -/
def timeNames : List Str := [s% "when", s% "begin", s% "end", s% "expires"]

/-- What is required of one element for its content to last (`Lasting`):
* the year of a time without a day has four digits;
* positions of tracks are numbers, not `nan`;
* coordinates have two or three components;
* the id of a schema is not blank. -/
structure LastingNode (F : Type) [PyExt F] (N : NsMap) (d : Xml) : Prop where
  years : ∀ n ∈ timeNames, KnownAs N n d.tag → ∀ s k, d.text = some s →
    KmlDateTime.parse (PyExt.arrowGet F) s = some k ∨ KmlDateTime.parse (PyExt.arrowGet F) (strip s) = some k → FullYear k
  positions : KnownAs N (s% "coord") d.tag → ∀ p : Pt F, numbersIn d = some p → ∀ f ∈ p, PyExt.isNaN f = false
  tuples : KnownAs N (s% "coordinates") d.tag → ∀ s, d.text = some s → ∀ l : List (Pt F), tuplesOf (latlons s) = some l →
    ∀ p ∈ l, p.length = 2 ∨ p.length = 3
  ids : KnownAs N (s% "Schema") d.tag → ∀ q, KnownAs N (s% "id") q → ∀ s, dget q d.attrs = some s → s ≠ [] → strip s ≠ []

/-- The same for all elements of a document. -/
def LastingDoc (F : Type) [PyExt F] (N : NsMap) (e : Xml) : Prop := ∀ d, Sub e d → LastingNode F N d

end Verif.Spec
