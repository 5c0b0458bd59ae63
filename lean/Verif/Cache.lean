import Verif.Files

/-!
# The cache of schemas

`get_schema_parser` (fastkml/validator.py:46-66) is decorated with
`functools.lru_cache(maxsize=16)`.  Here a program makes calls one after the other, and
between them files change, the XML library is replaced (`config.set_etree_implementation`,
fastkml/config.py:46-49) or the cache is cleared.
-/

namespace Verif

/-- The argument of `get_schema_parser`: `None` or a path. -/
abbrev SchemaKey := Option (Str × Str)

/-- The state of a program: the files, the XML library and the cache, the key that was used
last first.  What `etree.XMLSchema(etree.parse(schema))` gives depends on the files. -/
structure Session where
  fs : FS
  lib : FS → Etree
  cache : List (SchemaKey × XSchema)

/-- The library with the files as they are. -/
def Session.etree (s : Session) : Etree := s.lib s.fs

/-- `get_schema_parser(schema)` (fastkml/validator.py:46-66) with its cache: a hit makes the key
the one that was used last; a schema that was loaded is stored, and the key that was not used
for the longest time is removed if there are more than 16; exceptions are not stored. -/
def fetch (s : Session) (k : SchemaKey) : Session × SchemaResult :=
  match dget k s.cache with
  | some S => ({ s with cache := (k, S) :: s.cache.filter fun p => decide (p.1 ≠ k) }, .schema S)
  | none => match s.etree.schema k with
    | .schema S => ({ s with cache := ((k, S) :: s.cache).take 16 }, .schema S)
    | r => (s, r)

/-- `validate(schema=, element=, file_to_validate=)` (fastkml/validator.py:106-146) with the cache. -/
def validateWith (s : Session) (k : SchemaKey) (element : Option Xml) (file : Option (Str × Str)) : Except FErr (Option Bool) :=
  validate { s.etree with schema := fun k => (fetch s k).2 } s.fs k element file

variable {F : Type} [PyExt F]

/-- `KML.parse` (fastkml/kml.py:206-249) with the cache. -/
def parseWith (s : Session) (p : Str × Str) (ns : Option Str) (nss : Option NsMap) (strict : Bool) (v : Option Bool) :
    Except FErr (Val Cls F) × Option NsMap :=
  kmlParse { s.etree with schema := fun k => (fetch s k).2 } s.fs p ns nss strict v

/-- What a program can do. -/
inductive Event where
  /-- a call of `validate` -/
  | validate (k : SchemaKey) (element : Option Xml) (file : Option (Str × Str))
  /-- a call of `KML.parse` -/
  | parse (p : Str × Str) (strict : Bool) (v : Option Bool)
  /-- a call of `get_schema_parser` -/
  | get (k : SchemaKey)
  /-- files change, in any way -/
  | files (fs : FS)
  /-- `config.set_etree_implementation` -/
  | library (lib : FS → Etree)
  /-- `get_schema_parser.cache_clear()` -/
  | clear

/-- The schema that a call asks `get_schema_parser` for, if it gets there (fastkml/validator.py:129-135,
fastkml/kml.py:97-107). -/
def asks (s : Session) : Event → Option SchemaKey
  | .validate k e f => if e.isSome = f.isSome then none else some k
  | .parse p strict v =>
    if (if strict ∧ v = none then some true else v) = some true then
      match openFile s.fs p s.etree.recovering with
      | .ok _ => some none
      | .error _ => none
    else none
  | .get k => some k
  | _ => none

/-- The state afterwards. -/
def act (s : Session) : Event → Session
  | .files fs => { s with fs := fs }
  | .library lib => { s with lib := lib }
  | .clear => { s with cache := [] }
  | x => match asks s x with
    | some k => (fetch s k).1
    | none => s

/-- The state after a history, which has the latest event first. -/
def after (s : Session) : List Event → Session
  | [] => s
  | x :: h => act (after s h) x

end Verif
