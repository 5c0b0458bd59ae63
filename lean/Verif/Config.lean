import Verif.Files

/-!
# Configuration: fastkml/config.py

The XML library in use and the prefixes it writes.  Libraries are numbered; the prefixes
are a table inside of each library, which fastkml changes with the library's
`register_namespace`.
-/

namespace Verif

/-- The table of prefixes of an XML library: a dict from URIs to prefixes
(`_namespace_map` of `xml.etree.ElementTree`, `_DEFAULT_NAMESPACE_PREFIXES` of `lxml.etree`). -/
abbrev Prefixes := List (Str × Str)

/-- The function `register_namespace` of an XML library: the prefixes and URIs that it
accepts; for the others it raises `ValueError`. -/
structure Registrar where
  accepts : Str → Str → Bool

/-- The XML libraries; `none` is one without `register_namespace`. -/
abbrev Libraries := Nat → Option Registrar

/-- `etree.register_namespace(prefix, uri)` for a prefix that is accepted
(CPython, `xml/etree/ElementTree.py`: other entries with the prefix or the URI are deleted;
`lxml.etree` does the same). -/
def registerOne (prefix_ uri : Str) (t : Prefixes) : Prefixes :=
  dset uri prefix_ (t.filter fun p => !(decide (p.1 = uri) || decide (p.2 = prefix_)))

/-- The loop of `register_namespaces` (fastkml/config.py:73-74): it stops at the first
`ValueError`. -/
def registerAll (r : Registrar) : List (Str × Str) → Prefixes → Prefixes × Except FErr Unit
  | [], t => (t, .ok ())
  | (p, u) :: rest, t =>
    if r.accepts p u then registerAll r rest (registerOne p u t) else (t, .error .valueError)

/-- The state: the library in use (`config.etree`), and the tables of all libraries. -/
structure Config where
  etree : Nat
  table : Nat → Prefixes

/-- `set_etree_implementation(implementation)` (fastkml/config.py:46-49). -/
def setEtree (i : Nat) (c : Config) : Config := { c with etree := i }

/-- `register_namespaces(**namespaces)` (fastkml/config.py:70-76); the list has the prefixes
and URIs of the keyword arguments.  `AttributeError`, if the library has no
`register_namespace`, is logged. -/
def registerNamespaces (libs : Libraries) (ns : List (Str × Str)) (c : Config) : Config × Except FErr Unit :=
  match libs c.etree with
  | none => (c, .ok ())
  | some r =>
    let (t, res) := registerAll r ns (c.table c.etree)
    ({ c with table := fun i => if i = c.etree then t else c.table i }, res)

/-- `DEFAULT_NAME_SPACES` (fastkml/config.py:52-67): `{k: v[1:-1] for k, v in NAME_SPACES.items()}`. -/
def defaultPrefixes : List (Str × Str) := defaultNameSpaces.map fun p => (p.1, p.2.tail.dropLast)

/-- `set_default_namespaces()` (fastkml/config.py:79-81). -/
def setDefaultNamespaces (libs : Libraries) (c : Config) : Config × Except FErr Unit :=
  registerNamespaces libs defaultPrefixes c

/-- A call of a function of fastkml/config.py. -/
inductive Call where
  | setEtree (i : Nat)
  | register (ns : List (Str × Str))
  | setDefault

/-- One call: the state afterwards, and the exception if any. -/
def Call.run (libs : Libraries) (k : Call) (c : Config) : Config × Except FErr Unit :=
  match k with
  | .setEtree i => (Verif.setEtree i c, .ok ())
  | .register ns => registerNamespaces libs ns c
  | .setDefault => setDefaultNamespaces libs c

/-- A sequence of calls; the caller goes on after exceptions. -/
def runCalls (libs : Libraries) : List Call → Config → Config
  | [], c => c
  | k :: ks, c => runCalls libs ks (k.run libs c).1

end Verif
