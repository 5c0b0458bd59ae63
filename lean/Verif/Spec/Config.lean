import Verif.Std

/-!
# Prefixes: specification

The tables of prefixes with which XML text can be written.
-/

namespace Verif.Spec

/-- No two entries for a URI, no two URIs with the same prefix. -/
def OneToOne (t : Prefixes) : Prop := (t.map Prod.fst).Nodup ∧ (t.map Prod.snd).Nodup

/-- A prefix that XML allows and that is not of the form `ns0`, which `ElementTree` uses
itself; `xml` only for its own namespace.  The empty prefix stands for the default
namespace. -/
def GoodPrefix (prefix_ uri : Str) : Prop :=
  (prefix_ = [] ∨ legalName prefix_ = true) ∧ prefix_ ≠ s% "xmlns" ∧ Std.reserved prefix_ = false ∧
    (prefix_ = s% "xml" → uri ∈ reservedUris)

instance (p u : Str) : Decidable (GoodPrefix p u) := by unfold GoodPrefix; infer_instance

/-- A table of prefixes that can be used for writing. -/
def Usable (t : Prefixes) : Prop := OneToOne t ∧ ∀ p ∈ t, GoodPrefix p.2 p.1

/-- All elements have a namespace. -/
def Qualified (e : Xml) : Prop := ∀ d, Sub e d → nsPart d.tag ≠ []

/-- The element can be written with the table: the default namespace, if the table has one,
would be given to elements without namespace. -/
def FitsTable (t : Prefixes) (e : Xml) : Prop := (∀ p ∈ t, p.2 ≠ []) ∨ Qualified e

/-- Alphabetical order of texts, by code points. -/
abbrev TextLt (a b : Str) : Prop := List.Lex (fun x y => x.toNat < y.toNat) a b

/-- A name that opens a namespace and does not close it. -/
def Unclosed (q : Str) : Prop := ∃ r, q = '{' :: r ∧ '}' ∉ r

/-- The XML libraries accept the prefixes `kml`, `atom` and `gx`. -/
def LawfulLibs (libs : Libraries) : Prop :=
  ∀ i r, libs i = some r → ∀ p ∈ [(s% "kml", s% "http://www.opengis.net/kml/2.2"),
    (s% "atom", s% "http://www.w3.org/2005/Atom"), (s% "gx", s% "http://www.google.com/kml/ext/2.2")],
    r.accepts p.1 p.2 = true

/-- The state when fastkml is imported, before `set_default_namespaces()` of
fastkml/config.py:84: `ElementTree`, with the number `i`, has its own table. -/
def FreshEtree (i : Nat) (libs : Libraries) (c : Config) : Prop :=
  libs i = some Std.registrar ∧ c.table i = Std.wellKnown

/-- The library that was set last. -/
def lastSet (i : Nat) : List Call → Nat
  | [] => i
  | .setEtree j :: ks => lastSet j ks
  | _ :: ks => lastSet i ks

/-- The pairs of prefix and URI that a call registers. -/
def Call.pairs : Call → List (Str × Str)
  | .register ns => ns
  | _ => []

/-- The prefixes that the user registers are ones that XML allows. -/
def GoodCalls (ks : List Call) : Prop := ∀ k ∈ ks, ∀ p ∈ Call.pairs k, p.1 ≠ [] ∧ legalName p.1 = true ∧
  p.1 ≠ s% "xmlns" ∧ (p.1 = s% "xml" → p.2 ∈ reservedUris)

variable {C F : Type}

/-- The namespaces of an object, and those that its parts can have, are not empty. -/
def NoneEmpty (_ : C) (ns : Str) (nss : NsMap) (_ : List (Str × Val C F)) : Prop :=
  ns ≠ [] ∧ nsGet nss (s% "kml") ≠ [] ∧ nsGet nss (s% "gx") ≠ []

end Verif.Spec
