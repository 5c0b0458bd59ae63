import Verif.XsdData
import Verif.Spec.Lists
import Verif.Xml

/-!
# Validity against the schemas: specification
-/

namespace Verif

/-- Equality of texts, computed. -/
def sameStr : Str → Str → Bool
  | [], [] => true
  | a :: s, b :: t => Nat.beq a.toNat b.toNat && sameStr s t
  | _, _ => false

/-- Equality of names, computed. -/
def QN.same : QN → QN → Bool
  | .q .kml a, .q .kml b => sameStr a b
  | .q .gx a, .q .gx b => sameStr a b
  | .q .atom a, .q .atom b => sameStr a b
  | .q .xal a, .q .xal b => sameStr a b
  | .q .xs a, .q .xs b => sameStr a b
  | _, _ => false

namespace Spec

/-- The namespaces. -/
def uri : XNs → Str
  | .kml => s% "{http://www.opengis.net/kml/2.2}"
  | .gx => s% "{http://www.google.com/kml/ext/2.2}"
  | .atom => s% "{http://www.w3.org/2005/Atom}"
  | .xal => s% "{urn:oasis:names:tc:ciq:xsdschema:xAL:2.0}"
  | .xs => s% "{http://www.w3.org/2001/XMLSchema}"

/-- The tag of an element. -/
def tagOf : QN → Str
  | .q ns n => uri ns ++ n

/-- The declaration of an element. -/
def elemDecl (q : QN) : Option XElem := xsdElems.find? fun e => e.name.same q

/-- The declaration of a complex type. -/
def typeDecl (q : QN) : Option XType := xsdTypes.find? fun t => t.name.same q

/-- The values of an enumeration. -/
def enumDecl (q : QN) : Option XEnum := xsdEnums.find? fun t => t.name.same q

/-- An element name with its type. -/
abbrev Typed := QN × Option QN

/-- The elements that can stand for the element `g`: itself unless abstract, and the
elements of its substitution group, to the given depth. -/
def standIns : Nat → QN → List Typed
  | 0, _ => []
  | n + 1, g =>
    (match elemDecl g with
      | none => []
      | some e => if e.abstract then [] else [(e.name, e.type)]) ++
    (xsdElems.filter fun e => match e.subst with
      | none => false
      | some s => s.same g).flatMap fun e => standIns n e.name

/-- The elements that an alternative stands for. -/
def altElems (a : XAlt) : List Typed :=
  match a.type with
  | some t => [(a.name, some t)]
  | none => standIns 4 a.name

/-- A particle with all the elements it stands for. -/
structure Part where
  elems : List Typed
  min : Nat
  unb : Bool
deriving DecidableEq, Repr

/-- A particle with all the elements it stands for. -/
def part (p : XPart) : Part := ⟨p.alts.flatMap altElems, p.min, p.unb⟩

/-- The particles of a type, those of the bases first, to the given depth. -/
def partsOf : Nat → QN → List Part
  | 0, _ => []
  | n + 1, q => match typeDecl q with
    | none => []
    | some t => (match t.base with
      | none => []
      | some b => partsOf n b) ++ t.particles.map part

/-- The attributes of a type. -/
def typeAttrs : Nat → QN → List XAttr
  | 0, _ => []
  | n + 1, q => match typeDecl q with
    | none => []
    | some t => (match t.base with
      | none => []
      | some b => typeAttrs n b) ++ t.attrs

/-- A sequence of elements is accepted by a sequence of particles: it can be split in
one piece per particle, with only elements of the particle, and as many as it allows. -/
inductive Accepts : List Part → List Typed → Prop where
  | nil : Accepts [] []
  | cons {p ps ts us} (hin : ∀ t ∈ ts, t ∈ p.elems) (hmin : p.min ≤ ts.length)
      (hmax : p.unb = true ∨ ts.length ≤ 1) (h : Accepts ps us) : Accepts (p :: ps) (ts ++ us)

/-- The text is a value of the simple type, as far as the type is modelled:
enumerations, booleans and integers; the other simple types accept every text. -/
def textOk (t : QN) (s : Str) : Prop :=
  match enumDecl t with
  | some e => s ∈ e.values
  | none =>
    if t = .q .xs (s% "boolean") then s ∈ [s% "true", s% "false", s% "0", s% "1"]
    else if t = .q .xs (s% "int") ∨ t = .q .xs (s% "integer") then ∃ i, s = intRepr i
    else True

mutual
/-- The element is valid for the type, where `ok` says which texts the simple types
have: `textOk`, or `lexOk` of `Verif/Spec/Simple.lean`. -/
inductive Valid (ok : QN → Str → Prop) : QN → Xml → Prop where
  /-- A simple type: only text. -/
  | simple {t e} (hs : typeDecl t = none) (ha : e.attrs = []) (hk : e.kids = [])
      (ht : ∀ s, e.text = some s → ok t s) : Valid ok t e
  /-- A complex type: only declared attributes, with values of their types, the required
  ones present, the children in the prescribed order, and text only if the type has it. -/
  | complex {t ty e qs} (hs : typeDecl t = some ty)
      (ha : ∀ k s, e.get k = some s → ∃ a ∈ typeAttrs 8 t, a.name = k ∧ ∀ ty', a.type = some ty' → ok ty' s)
      (hr : ∀ a ∈ typeAttrs 8 t, a.required = true → e.get a.name ≠ none)
      (hx : ty.text = false → e.text = none)
      (hq : Accepts (partsOf 8 t) qs) (hk : ValidAll ok qs e.kids) : Valid ok t e
/-- The elements have the given names and are valid for the given types. -/
inductive ValidAll (ok : QN → Str → Prop) : List Typed → List Xml → Prop where
  | nil : ValidAll ok [] []
  | cons {q t k qs ks} (hn : k.tag = tagOf q) (hv : Valid ok t k) (h : ValidAll ok qs ks) :
      ValidAll ok ((q, some t) :: qs) (k :: ks)
end

end Spec

end Verif
