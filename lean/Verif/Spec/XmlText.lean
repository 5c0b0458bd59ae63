import Verif.Spec.Rename
import Verif.Spec.Errors
import Verif.Spec.Cycle

/-!
# XML as text: specification

Which elements can be written as XML text without loss, and what is expected of the
XML library that writes and reads the text.
-/

namespace Verif.Spec

/-- The characters of XML 1.0 (production 2), except the carriage return, which XML
parsers replace. -/
def XmlChar (c : Char) : Prop :=
  c = '\t' ∨ c = '\n' ∨ (0x20 ≤ c.toNat ∧ c.toNat ≠ 0xFFFE ∧ c.toNat ≠ 0xFFFF)

instance (c : Char) : Decidable (XmlChar c) := by unfold XmlChar; infer_instance

/-- A text that XML can hold as the content of an element. -/
def LegalText (s : Str) : Prop := ∀ c ∈ s, XmlChar c

/-- A text that XML can hold as the value of an attribute.  Carriage returns are written as
character references here, and not changed by parsers. -/
def LegalValue (s : Str) : Prop := ∀ c ∈ s, XmlChar c ∨ c = '\r'

instance (s : Str) : Decidable (LegalText s) := by unfold LegalText; infer_instance
instance (s : Str) : Decidable (LegalValue s) := by unfold LegalValue; infer_instance

/-- The first character of a name (ASCII only). -/
def nameStart (c : Char) : Bool :=
  ('A' ≤ c && c ≤ 'Z') || ('a' ≤ c && c ≤ 'z') || c == '_'

/-- A character of a name (ASCII only). -/
def nameChar (c : Char) : Bool :=
  nameStart c || ('0' ≤ c && c ≤ '9') || c == '-' || c == '.'

/-- A name of an element or attribute, without prefix. -/
def legalName : Str → Bool
  | [] => false
  | c :: r => nameStart c && r.all nameChar

/-- The namespaces of `xml:` and `xmlns:`, to which nothing else can be bound. -/
def reservedUris : List Str := [s% "http://www.w3.org/XML/1998/namespace", s% "http://www.w3.org/2000/xmlns/"]

/-- The URI of a namespace. -/
def LegalUri (u : Str) : Prop := u ≠ [] ∧ (∀ c ∈ u, XmlChar c ∧ c ≠ '\t' ∧ c ≠ '\n') ∧ '{' ∉ u ∧ '}' ∉ u ∧ u ∉ reservedUris

instance (u : Str) : Decidable (LegalUri u) := by unfold LegalUri; infer_instance

/-- A namespace: none, or `{uri}`. -/
def LegalNs (n : Str) : Prop := n = [] ∨ ∃ u, n = '{' :: u ++ ['}'] ∧ LegalUri u

/-- What XML can hold of one element, its children aside.  An element with a text has no
children (fastkml writes no such elements). -/
structure LegalNode (d : Xml) : Prop where
  tag : ∃ n l, d.tag = n ++ l ∧ LegalNs n ∧ legalName l = true
  keys : (d.attrs.map Prod.fst).Nodup
  attrs : ∀ p ∈ d.attrs, legalName p.1 = true ∧ LegalValue p.2
  /-- `xmlns` declares the namespace of elements without prefix -/
  xmlns : ∀ u, (s% "xmlns", u) ∈ d.attrs → LegalUri u ∧ nsPart d.tag = []
  text : ∀ s, d.text = some s → s ≠ [] ∧ LegalText s ∧ d.kids = []

/-- An element that can be written as XML text. -/
def Writable (e : Xml) : Prop := ∀ d, Sub e d → LegalNode d

/-- White space, or nothing. -/
def blank : Option Str → Bool
  | none => true
  | some s => s.all isSpace

/-- `e'` is `e`, but elements with children may have other white space before the first
child (pretty printing). -/
inductive Indented : Xml → Xml → Prop where
  | mk {t a x x' ks ks'} (hx : x' = x ∨ (ks ≠ [] ∧ blank x = true ∧ blank x' = true))
      (hlen : ks.length = ks'.length) (hks : ∀ p ∈ ks.zip ks', Indented p.1 p.2) :
      Indented (.mk t a x ks) (.mk t a x' ks')

/-- `t` is the text that `to_string` takes from the XML library for `e`. -/
def Prints (W : Etree) (pretty : Bool) (e : Xml) (t : Str) : Prop :=
  W.pretty pretty e = .ok t ∨ (W.pretty pretty e = .error .typeError ∧ W.tostring e = .ok t)

/-- What `KML.parse` without validation takes from the XML library for a file. -/
def Loads (W : Etree) (f : File) (e : Xml) : Prop :=
  W.recovering f = .ok e ∨ (W.recovering f = .error .typeError ∧ W.plain f = .ok e)

/-- An XML library that reads what it writes: it writes every element that can be written,
and reads the text, from a string or from a file in UTF-8, as the same element up to
indentation; `xmlns` is not an attribute, but the namespace of what is inside. -/
structure Faithful (W : Etree) : Prop where
  prints : ∀ b e, Writable e → ∃ t, Prints W b e t
  reads : ∀ b e t, Writable e → Prints W b e t →
    ∃ e', Indented (resolve [] e) e' ∧ W.fromstring t = .ok e' ∧ Loads W (.plain (utf8 t)) e'

/-- The validation that `KML.parse(strict=, validate=)` does, if any, accepts the element,
however it is indented. -/
def Passes (W : Etree) (strict : Bool) (v : Option Bool) (e : Xml) : Prop :=
  v = some false ∨ (v = none ∧ strict = false) ∨
    ∀ fs e', Indented e e' → ∃ r, validate W fs none (some e') none = .ok r

variable {C F : Type} [DecidableEq C] [PyExt F]

/-- The texts and namespaces of an object can be written as XML text. -/
structure Legal (L : Lib C) (c : C) (ns : Str) (nss : NsMap) (attrs : List (Str × Val C F)) : Prop where
  ns : LegalNs ns
  nss : ∀ p ∈ nss, LegalNs p.2
  text : ∀ it ∈ L.itemsOf c, place it.get ≠ .attr → ∀ s, attr it.attr attrs = .str s → LegalText s
  value : ∀ it ∈ L.itemsOf c, place it.get = .attr → ∀ s, attr it.attr attrs = .str s → LegalValue s

/-- Printable ASCII. -/
def Ascii (s : Str) : Prop := ∀ c ∈ s, 0x20 ≤ c.toNat ∧ c.toNat < 0x7F

/-- `str(f)` and `f"{f:.{p}f}"` are printable ASCII. -/
class AsciiExt (F : Type) [PyExt F] : Prop where
  repr : ∀ f : F, Ascii (PyExt.repr f)
  fixed : ∀ p (f : F), Ascii (PyExt.fixed p f)

end Verif.Spec
