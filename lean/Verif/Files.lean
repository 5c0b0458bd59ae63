import Verif.Classes

/-!
# Reading and writing files: fastkml/kml.py, fastkml/validator.py

The XML library and the file system are parameters.
-/

namespace Verif

/-- What `KML.parse`, `KML.write` and `validate` can raise. -/
inductive FErr where
  /-- an exception of the rest of fastkml -/
  | kml (e : Err)
  | valueError
  | typeError
  | assertionError
  | indexError
  /-- `OSError` -/
  | osError
  /-- any other exception of the XML library, e.g. `XMLSyntaxError` -/
  | xml (n : Nat)
deriving DecidableEq, Repr

/-- Bytes. -/
abbrev Bytes := List UInt8

/-- The UTF-8 encoding of a text. -/
def utf8 (s : Str) : Bytes := s.flatMap String.utf8EncodeChar

/-- A file: its bytes, or a zip archive (its members by name). -/
inductive File where
  | plain (b : Bytes)
  | zip (members : List (Str × Bytes))
deriving DecidableEq

/-- A file system; `none` is a path without file.  Files are named by their path, of
which only the last component matters to `KML.write`: a path is its directory and its
name. -/
abbrev FS := Str × Str → Option File

/-- `fs[p] = f`. -/
def FS.put (fs : FS) (p : Str × Str) (f : File) : FS := fun q => if q = p then some f else fs q

/-- What `element.xpath(error_entry.path)[0].getparent()` does: `XPathEvalError`,
`IndexError` for an empty list, or an element or `None`. -/
inductive XPath where
  | evalError
  | empty
  | found (parent : Option Xml)

/-- A schema: `assert_` and the error log of a failed `assert_`. -/
structure XSchema where
  valid : Xml → Bool
  log : Xml → List XPath

/-- `etree.XMLSchema(etree.parse(schema))`. -/
inductive SchemaResult where
  /-- `etree.XMLSchema` does not exist: `AttributeError` -/
  | missing
  | error (e : FErr)
  | schema (s : XSchema)

/-- The XML library (`config.etree`). -/
structure Etree where
  /-- `etree.XMLParser(huge_tree=True, recover=True)` and `etree.parse(file, parser)`;
  `xml.etree.ElementTree` raises `TypeError`. -/
  recovering : File → Except FErr Xml
  /-- `etree.parse(file)` -/
  plain : File → Except FErr Xml
  /-- `etree.tostring(element, encoding="unicode", pretty_print=...)`;
  `xml.etree.ElementTree` raises `TypeError`. -/
  pretty : Bool → Xml → Except FErr Str
  /-- `etree.tostring(element, encoding="unicode")` -/
  tostring : Xml → Except FErr Str
  /-- `etree.fromstring(string)` -/
  fromstring : Str → Except FErr Xml
  /-- `get_schema_parser(schema)` (fastkml/validator.py:46-66).  The cache is not
  modelled: a schema file is read at most once. -/
  schema : Option (Str × Str) → SchemaResult

/-- `etree.parse(path)`: `OSError` if there is no such file. -/
def openFile (fs : FS) (p : Str × Str) (f : File → Except FErr Xml) : Except FErr Xml :=
  match fs p with
  | none => .error .osError
  | some b => f b

/-- `handle_validation_error` (fastkml/validator.py:69-103): only its exceptions. -/
def handleValidation : List XPath → Except FErr Unit
  | [] => .ok ()
  | .evalError :: r => handleValidation r
  | .empty :: _ => .error .indexError
  | .found _ :: r => handleValidation r

/-- `validate(schema=, element=, file_to_validate=)` (fastkml/validator.py:106-146);
`none` is `None`. -/
def validate (W : Etree) (fs : FS) (schema : Option (Str × Str)) (element : Option Xml)
    (file : Option (Str × Str)) : Except FErr (Option Bool) :=
  if element.isNone ∧ file.isNone then .error .valueError
  else if element.isSome ∧ file.isSome then .error .valueError
  else match W.schema schema with
    | .missing => .ok none
    | .error e => .error e
    | .schema s =>
      let doc : Except FErr Xml := match file with
        | some p => openFile fs p W.plain
        | none => match element with
          | some e => .ok e
          | none => .error .assertionError
      match doc with
      | .error e => .error e
      | .ok e =>
        if s.valid e then .ok (some true)
        else match handleValidation (s.log e) with
          | .error x => .error x
          | .ok _ => .error .assertionError

/-- `lxml_parse_and_validate(file, strict, validate)` (fastkml/kml.py:73-108). -/
def parseAndValidate (W : Etree) (fs : FS) (p : Str × Str) (strict : Bool) (v : Option Bool) : Except FErr Xml :=
  let v := if strict ∧ v = none then some true else v
  match openFile fs p W.recovering with
  | .error e => .error e
  | .ok e =>
    if v = some true then match validate W fs none (some e) none with
      | .error x => .error x
      | .ok _ => .ok e
    else .ok e

/-- The root element that `KML.parse` uses (fastkml/kml.py:234-237). -/
def loadRoot (W : Etree) (fs : FS) (p : Str × Str) (strict : Bool) (v : Option Bool) : Except FErr Xml :=
  match parseAndValidate W fs p strict v with
  | .error .typeError => openFile fs p W.plain
  | r => r

/-- `ns` in `KML.parse` (fastkml/kml.py:238-239). -/
def detectNs (ns : Option Str) (root : Xml) : Str :=
  match ns with
  | some n => n
  | none => if endsWith (s% "kml") root.tag then root.tag.take (root.tag.length - 3) else []

/-- `name_spaces` in `KML.parse` before the merge (fastkml/kml.py:240-242). -/
def parseNss (n : Str) (nss : NsMap) : NsMap := if n ≠ [] then dset (s% "kml") n nss else nss

variable {F : Type} [PyExt F]

/-- `KML.parse` after loading (fastkml/kml.py:238-249). -/
def parseRoot (ns : Option Str) (nss : Option NsMap) (strict : Bool) (root : Xml) : Except Err (Val Cls F) :=
  let n := detectNs ns root
  let m := mergeNs (parseNss n (nss.getD []))
  parse fastkml strict root .KML n m

/-- The caller's dictionary after `KML.parse` (fastkml/kml.py:240-242): an empty one
is replaced by a new one, another one is changed. -/
def callerNss (ns : Option Str) (nss : Option NsMap) (root : Xml) : Option NsMap :=
  match nss with
  | none => none
  | some d => if d = [] then some [] else some (parseNss (detectNs ns root) d)

/-- `KML.parse(file, ns=, name_spaces=, strict=, validate=)` (fastkml/kml.py:206-249): the
result and the caller's dictionary afterwards. -/
def kmlParse (W : Etree) (fs : FS) (p : Str × Str) (ns : Option Str) (nss : Option NsMap) (strict : Bool)
    (v : Option Bool) : Except FErr (Val Cls F) × Option NsMap :=
  match loadRoot W fs p strict v with
  | .error e => (.error e, nss)
  | .ok root => (match parseRoot ns nss strict root with
    | .error e => .error (.kml e)
    | .ok v => .ok v, callerNss ns nss root)

/-- `to_string` (fastkml/base.py:185-230). -/
def toString (W : Etree) (prettyprint : Bool) (o : Opts) (v : Val Cls F) : Except FErr Str :=
  match ser fastkml o v with
  | .error e => .error (.kml e)
  | .ok e => match W.pretty prettyprint e with
    | .error .typeError => W.tostring e
    | r => r

/-- `cls.from_string(string, ns=, name_spaces=, strict=)` (fastkml/base.py:412-452). -/
def fromString (W : Etree) (strict : Bool) (c : Cls) (ns : Option Str) (nss : NsMap) (t : Str) :
    Except FErr (Val Cls F) :=
  match W.fromstring t with
  | .error e => .error e
  | .ok e => match fromElement fastkml strict c ns nss e with
    | .error x => .error (.kml x)
    | .ok v => .ok v

/-- Position of the last dot: `name.rfind(".")`. -/
def rfindDot (s : Str) : Option Nat :=
  match s.reverse.idxOf? '.' with
  | some i => some (s.length - 1 - i)
  | none => none

/-- `PurePath.suffix` of a path with this name (CPython's pathlib before 3.14):
`i = name.rfind("."); name[i:] if 0 < i < len(name) - 1 else ""`. -/
def suffix (name : Str) : Str :=
  match rfindDot name with
  | some i => if 0 < i ∧ i < name.length - 1 then name.drop i else []
  | none => []

/-- `KML.write(file_path, prettyprint=, precision=, verbosity=)` (fastkml/kml.py:251-290).
Errors of the file system are not modelled, and `os.linesep` is a line feed. -/
def kmlWrite (W : Etree) (fs : FS) (p : Str × Str) (prettyprint : Bool) (o : Opts) (v : Val Cls F) :
    FS × Except FErr Unit :=
  match ser fastkml o v with
  | .error e => (fs, .error (.kml e))
  | .ok e =>
    let text := match W.pretty prettyprint e with
      | .error .typeError => W.tostring e
      | r => r
    match text with
    | .error x => (fs, .error x)
    | .ok t =>
      if suffix p.2 = (s% ".kmz") then (fs.put p (.zip [(s% "doc.kml", utf8 t)]), .ok ())
      else (fs.put p (.plain (utf8 t)), .ok ())

end Verif
