import Verif.Spec.XmlText
import Verif.Lxml

/-!
# Writing with lxml: specification
-/

namespace Verif.Spec

variable {C F : Type} [DecidableEq C] [PyExt F]

/-- The characters of XML 1.0 (production 2). -/
def XmlCharacter (c : Char) : Prop := XmlChar c ∨ c = '\r'

/-- A text of such characters. -/
def XmlString (s : Str) : Prop := ∀ c ∈ s, XmlCharacter c

/-- `x` is an object that is written when `v` is: `v` itself, or written when an object is
that is the value of an attribute of `v`, or a member of such a list, and not empty. -/
inductive Reached (L : Lib C) (x : Val C F) : Val C F → Prop where
  | self : Reached L x x
  | object {c ns nss attrs it} : it ∈ L.itemsOf c → place it.get = .object → truthy L (attr it.attr attrs) = .ok true →
      Reached L x (attr it.attr attrs) → Reached L x (.obj c ns nss attrs)
  | member {c ns nss attrs it l w} : it ∈ L.itemsOf c → place it.get = .objects → attr it.attr attrs = .list l → w ∈ l →
      truthy L w = .ok true → Reached L x w → Reached L x (.obj c ns nss attrs)

/-- The texts of an object, in elements or XML attributes, are texts of XML. -/
def PlainTexts (L : Lib C) (c : C) (attrs : List (Str × Val C F)) : Prop :=
  ∀ it ∈ L.itemsOf c, scalar it.get = true → ∀ s, attr it.attr attrs = .str s → XmlString s

/-- The namespaces of an object are texts of XML. -/
def PlainNs (ns : Str) (nss : NsMap) : Prop := XmlString ns ∧ ∀ p ∈ nss, XmlString p.2

/-- The names, texts and values of a document are texts of XML, as everything that an XML
parser returns. -/
def PlainDoc (e : Xml) : Prop :=
  ∀ d, Sub e d → (∀ s, d.text = some s → XmlString s) ∧ ∀ p ∈ d.attrs, XmlString p.2

end Verif.Spec
