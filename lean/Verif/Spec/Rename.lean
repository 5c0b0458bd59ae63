import Verif.Files
import Verif.Spec.Names

/-!
# Other namespaces: specification

A renaming of namespaces is a function on namespaces (`{uri}`, or empty for none).
-/

namespace Verif.Spec

/-- The part of a tag up to the last `}`: its namespace. -/
def nsPart (tag : Str) : Str := tag.take (tag.length - (localName tag).length)

/-- A tag in another namespace. -/
def renTag (f : Str → Str) (tag : Str) : Str := f (nsPart tag) ++ localName tag

/-- The name of an XML attribute in another namespace; names without prefix are in no
namespace. -/
def renKey (f : Str → Str) (key : Str) : Str := if nsPart key = [] then key else renTag f key

mutual
/-- A document with other namespaces. -/
def renXml (f : Str → Str) : Xml → Xml
  | .mk tag attrs text kids => .mk (renTag f tag) (attrs.map fun p => (renKey f p.1, p.2)) text (renKids f kids)
termination_by structural e => e
/-- The children. -/
def renKids (f : Str → Str) : List Xml → List Xml
  | [] => []
  | k :: ks => renXml f k :: renKids f ks
termination_by structural l => l
end

/-- A namespace mapping with other namespaces. -/
def renMap (f : Str → Str) (N : NsMap) : NsMap := N.map fun p => (p.1, f p.2)

variable {C F : Type}

mutual
/-- An object with other namespaces in it and in all objects in it. -/
def renVal (f : Str → Str) : Val C F → Val C F
  | .obj c ns nss attrs => .obj c (f ns) (renMap f nss) (renAttrs f attrs)
  | .none => .none
  | .str s => .str s
  | .bool b => .bool b
  | .int i => .int i
  | .float x => .float x
  | .enum e x => .enum e x
  | .dt k => .dt k
  | .floats l => .floats l
  | .coords l => .coords l
  | .whens l => .whens l
  | .items l => .items l
  | .list l => .list (renList f l)
termination_by structural v => v
/-- The attributes. -/
def renAttrs (f : Str → Str) : List (Str × Val C F) → List (Str × Val C F)
  | [] => []
  | (a, v) :: r => (a, renVal f v) :: renAttrs f r
termination_by structural l => l
/-- The members. -/
def renList (f : Str → Str) : List (Val C F) → List (Val C F)
  | [] => []
  | v :: r => renVal f v :: renList f r
termination_by structural l => l
end

/-- A renaming that keeps different namespaces different. -/
structure Renaming (f : Str → Str) : Prop where
  none : f [] = []
  form : ∀ n, NsForm n → NsForm (f n)
  inj : ∀ m n, NsForm m → NsForm n → f m = f n → m = n

/-- The same value or exception for a renamed document. -/
def renResult (f : Str → Str) : Except Err (Val C F) → Except Err (Val C F)
  | .ok v => .ok (renVal f v)
  | .error e => .error e

/-- What an XML parser makes of the written element `e`, `d` being the default namespace
in scope: `xmlns` sets the default namespace, and elements without prefix are in the
default namespace. -/
def resolveTag (d tag : Str) : Str := if nsPart tag = [] then d ++ tag else tag

/-- The default namespace inside of an element with these attributes. -/
def defaultNs (d : Str) (attrs : List (Str × Str)) : Str :=
  match dget (s% "xmlns") attrs with
  | none => d
  | some [] => []
  | some u => '{' :: u ++ ['}']

mutual
/-- The element that is parsed. -/
def resolve (d : Str) : Xml → Xml
  | .mk tag attrs text kids => .mk (resolveTag (defaultNs d attrs) tag)
      (attrs.filter fun p => decide (p.1 ≠ s% "xmlns")) text (resolveKids (defaultNs d attrs) kids)
termination_by structural e => e
/-- The children. -/
def resolveKids (d : Str) : List Xml → List Xml
  | [] => []
  | k :: ks => resolve d k :: resolveKids d ks
termination_by structural l => l
end

/-- What is in no namespace is put into `d`. -/
def putInto (d n : Str) : Str := if n = [] then d else n

/-- The two namespaces exchanged. -/
def exchange (a b n : Str) : Str := if n = a then b else if n = b then a else n

/-- The namespaces of an object are well formed, and a `KML` object has one. -/
structure Named (L : Lib C) (c : C) (ns : Str) (nss : NsMap) (_ : List (Str × Val C F)) : Prop where
  form : NsForm ns
  ok : NsOk nss
  kml : (L.info c).special = .kml → ns ≠ []

/-- The namespaces of an object in a document are well formed, its namespace mapping
has entries for `kml` and `gx` as that of every new object, and it is not a `KML` itself. -/
structure PartOf (L : Lib C) (c : C) (ns : Str) (nss : NsMap) (_ : List (Str × Val C F)) : Prop where
  form : NsForm ns
  ok : NsOk nss
  kml : (dget (s% "kml") nss).isSome = true
  gx : (dget (s% "gx") nss).isSome = true
  part : (L.info c).special ≠ .kml

end Verif.Spec
