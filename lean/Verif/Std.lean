import Verif.Config
import Verif.Spec.XmlText

/-!
# `xml.etree.ElementTree`

The XML library that fastkml uses without lxml (fastkml/config.py:36-41): the writer is
modelled after CPython 3.11's `xml/etree/ElementTree.py`; the reader is a parser for a part
of XML, in place of expat.  Comments, processing instructions, tails and `QName` values are
left out: fastkml does not write them.
-/

set_option linter.unusedSectionVars false
set_option linter.unusedSimpArgs false

namespace Verif.Std

open Spec

/-! ## Writing -/

/-- `re.match(r"ns\d+$", prefix)` (ElementTree.py:996). -/
def reserved : Str → Bool
  | 'n' :: 's' :: r =>
    let d := if r.getLast? = some '\n' then r.dropLast else r
    !d.isEmpty && d.all fun c => (decimalVal c).isSome
  | _ => false

/-- `register_namespace` of `xml.etree.ElementTree` (ElementTree.py:984-1001). -/
def registrar : Registrar := ⟨fun p _ => !reserved p⟩

/-- `_namespace_map` (ElementTree.py:1003-1014). -/
def wellKnown : Prefixes :=
  [(s% "http://www.w3.org/XML/1998/namespace", s% "xml"),
   (s% "http://www.w3.org/1999/xhtml", s% "html"),
   (s% "http://www.w3.org/1999/02/22-rdf-syntax-ns#", s% "rdf"),
   (s% "http://schemas.xmlsoap.org/wsdl/", s% "wsdl"),
   (s% "http://www.w3.org/2001/XMLSchema", s% "xs"),
   (s% "http://www.w3.org/2001/XMLSchema-instance", s% "xsi"),
   (s% "http://purl.org/dc/elements/1.1/", s% "dc")]

/-- What `_namespaces` collects: `qnames` and `namespaces` (ElementTree.py:808-811). -/
structure Names where
  qnames : List (Str × Str)
  namespaces : Prefixes

/-- `uri, tag = qname[1:].rsplit("}", 1)` (ElementTree.py:819); `none` is `ValueError`. -/
def rsplitBrace (s : Str) : Option (Str × Str) :=
  if '}' ∈ s then
    some ((s.reverse.dropWhile (fun c => c != '}')).tail.reverse, (s.reverse.takeWhile (fun c => c != '}')).reverse)
  else none

/-- The prefix of a URI, and `namespaces` afterwards (ElementTree.py:820-826). -/
def prefixFor (m ns : Prefixes) (u : Str) : Str × Prefixes :=
  match dget u ns with
  | some p => (p, ns)
  | none =>
    let p := match dget u m with
      | some p => p
      | none => s% "ns" ++ natRepr ns.length
    (p, if p = s% "xml" then ns else dset u p ns)

/-- A name with its prefix (ElementTree.py:827-830). -/
def qualify (p l : Str) : Str := if p = [] then l else p ++ ':' :: l

/-- `add_qname` (ElementTree.py:815-840). -/
def addQname (m : Prefixes) (q : Str) (st : Names) : Except FErr Names :=
  match q with
  | '{' :: r => match rsplitBrace r with
    | none => .error .valueError
    | some (u, l) =>
      let (p, ns) := prefixFor m st.namespaces u
      .ok ⟨dset q (qualify p l) st.qnames, ns⟩
  | _ => .ok ⟨dset q q st.qnames, st.namespaces⟩

/-- `if qname not in qnames: add_qname(qname)` (ElementTree.py:849-850, 856-857). -/
def note (m : Prefixes) (q : Str) (st : Names) : Except FErr Names :=
  if (dget q st.qnames).isSome then .ok st else addQname m q st

/-- The names of several attributes (ElementTree.py:853-857). -/
def noteAll (m : Prefixes) : List (Str × Str) → Names → Except FErr Names
  | [], st => .ok st
  | p :: r, st => match note m p.1 st with
    | .error e => .error e
    | .ok st => noteAll m r st

mutual
/-- The loop of `_namespaces` (ElementTree.py:843-862) over an element and what is in it. -/
def collect (m : Prefixes) : Xml → Names → Except FErr Names
  | .mk tag attrs _ kids, st => match note m tag st with
    | .error e => .error e
    | .ok st => match noteAll m attrs st with
      | .error e => .error e
      | .ok st => collectKids m kids st
termination_by structural e => e
/-- The children. -/
def collectKids (m : Prefixes) : List Xml → Names → Except FErr Names
  | [], st => .ok st
  | k :: ks, st => match collect m k st with
    | .error e => .error e
    | .ok st => collectKids m ks st
termination_by structural l => l
end

/-- A character of `_escape_cdata` (ElementTree.py:1023-1037). -/
def cdataChar (c : Char) : Str :=
  if c = '&' then s% "&amp;"
  else if c = '<' then s% "&lt;"
  else if c = '>' then s% "&gt;"
  else [c]

/-- A character of `_escape_attrib` (ElementTree.py:1039-1065). -/
def attribChar (c : Char) : Str :=
  if c = '&' then s% "&amp;"
  else if c = '<' then s% "&lt;"
  else if c = '>' then s% "&gt;"
  else if c = '"' then s% "&quot;"
  else if c = '\r' then s% "&#13;"
  else if c = '\n' then s% "&#10;"
  else if c = '\t' then s% "&#09;"
  else [c]

/-- `_escape_cdata`. -/
def cdata (s : Str) : Str := s.flatMap cdataChar

/-- `_escape_attrib`. -/
def attrib (s : Str) : Str := s.flatMap attribChar

/-- `" %s=\"%s\"" % (key, _escape_attrib(value))` (ElementTree.py:890-893, 901). -/
def attrText : List (Str × Str) → Str
  | [] => []
  | p :: r => ' ' :: (p.1 ++ '=' :: '"' :: (attrib p.2 ++ '"' :: attrText r))

/-- Comparison of texts by code points. -/
def strLe : Str → Str → Bool
  | [], _ => true
  | _ :: _, [] => false
  | a :: r, b :: s => decide (a.toNat < b.toNat) || (decide (a = b) && strLe r s)

/-- Insert by prefix. -/
def insertPrefix (x : Str × Str) : Prefixes → Prefixes
  | [] => [x]
  | y :: r => if strLe x.2 y.2 then x :: y :: r else y :: insertPrefix x r

/-- `sorted(namespaces.items(), key=lambda x: x[1])` (ElementTree.py:886-887). -/
def sortPrefixes (l : Prefixes) : Prefixes := l.foldr insertPrefix []

/-- The declarations of the root (ElementTree.py:886-893). -/
def decls (l : Prefixes) : List (Str × Str) :=
  (sortPrefixes l).map fun p => (s% "xmlns" ++ (if p.2 = [] then [] else ':' :: p.2), p.1)

/-- `qnames[name]` (ElementTree.py:874, 901); all names are in `qnames`. -/
def nameOf (qn : List (Str × Str)) (q : Str) : Str := (dget q qn).getD q

mutual
/-- `_serialize_xml` (ElementTree.py:865-913) with `short_empty_elements`; `ds` are the
declarations. -/
def write (qn ds : List (Str × Str)) : Xml → Str
  | .mk tag attrs text kids =>
    '<' :: (nameOf qn tag ++ (attrText (ds ++ attrs.map fun p => (nameOf qn p.1, p.2)) ++
      if text.getD [] ≠ [] ∨ kids ≠ [] then
        '>' :: (cdata (text.getD []) ++ (writeKids qn kids ++ '<' :: '/' :: (nameOf qn tag ++ ['>'])))
      else s% " />"))
termination_by structural e => e
/-- The children. -/
def writeKids (qn : List (Str × Str)) : List Xml → Str
  | [] => []
  | k :: ks => write qn [] k ++ writeKids qn ks
termination_by structural l => l
end

/-- `tostring(element, encoding="unicode")` (ElementTree.py:1082-1104). -/
def tostring (m : Prefixes) (e : Xml) : Except FErr Str :=
  match collect m e ⟨[], []⟩ with
  | .error x => .error x
  | .ok st => .ok (write st.qnames (decls st.namespaces) e)

/-! ## Reading -/

/-- Start tag (with `empty`, also the end tag), end tag or character data. -/
inductive Tok where
  | op (q : Str) (as : List (Str × Str)) (empty : Bool)
  | cl (q : Str)
  | tx (s : Str)
deriving DecidableEq

/-- Replace an entity or character reference at the front. -/
def unescStep (c : Char) (acc : Str) : Str :=
  if c = '&' then
    match acc with
    | 'a' :: 'm' :: 'p' :: ';' :: r => '&' :: r
    | 'l' :: 't' :: ';' :: r => '<' :: r
    | 'g' :: 't' :: ';' :: r => '>' :: r
    | 'q' :: 'u' :: 'o' :: 't' :: ';' :: r => '"' :: r
    | '#' :: '1' :: '3' :: ';' :: r => '\r' :: r
    | '#' :: '1' :: '0' :: ';' :: r => '\n' :: r
    | '#' :: '0' :: '9' :: ';' :: r => '\t' :: r
    | _ => '&' :: acc
  else c :: acc

/-- Replace the entities. -/
def unesc (s : Str) : Str := s.foldr unescStep []

/-- White space in attribute values becomes a blank, unless it is a character reference
(XML 1.0, 3.3.3). -/
def flat (c : Char) : Char := if c = '\t' ∨ c = '\n' ∨ c = '\r' then ' ' else c

/-- The attributes and the end of a start tag. -/
def lexAttrs : Nat → Str → Option (List (Str × Str) × Bool × Str)
  | 0, _ => none
  | n + 1, s => match s with
    | '>' :: r => some ([], false, r)
    | ' ' :: '/' :: '>' :: r => some ([], true, r)
    | ' ' :: r => match r.dropWhile (fun c => c != '=') with
      | '=' :: '"' :: r2 => match r2.dropWhile (fun c => c != '"') with
        | '"' :: r3 => (lexAttrs n r3).map fun p =>
            ((r.takeWhile (fun c => c != '='), unesc ((r2.takeWhile (fun c => c != '"')).map flat)) :: p.1, p.2)
        | _ => none
      | _ => none
    | _ => none

/-- The tokens of a text. -/
def lex : Nat → Str → Option (List Tok)
  | _, [] => some []
  | 0, _ => none
  | n + 1, c :: r =>
    if c = '<' then
      match r with
      | '/' :: r => match r.dropWhile (fun c => c != '>') with
        | '>' :: r2 => (lex n r2).map (Tok.cl (r.takeWhile (fun c => c != '>')) :: ·)
        | _ => none
      | r => match lexAttrs (r.length + 1) (r.dropWhile (fun c => c != ' ' && c != '>')) with
        | some (as, b, r2) =>
          (lex n r2).map (Tok.op (r.takeWhile (fun c => c != ' ' && c != '>')) as b :: ·)
        | none => none
    else (lex n ((c :: r).dropWhile (fun c => c != '<'))).map
      (Tok.tx (unesc ((c :: r).takeWhile (fun c => c != '<'))) :: ·)

/-- A name with or without prefix: the prefix and the rest. -/
def splitColon (q : Str) : Str × Str :=
  if ':' ∈ q then (q.takeWhile (fun c => c != ':'), (q.dropWhile (fun c => c != ':')).tail) else ([], q)

/-- A name that can be written in a tag (ASCII only). -/
def goodName (q : Str) : Bool :=
  if ':' ∈ q then legalName (splitColon q).1 && legalName (splitColon q).2 else legalName q

/-- The prefixes that are declared in a start tag. -/
def declared (as : List (Str × Str)) : List (Str × Str) :=
  as.filterMap fun p => if (splitColon p.1).1 = s% "xmlns" then some ((splitColon p.1).2, p.2) else none

/-- Declarations that are allowed: not of `xml` and `xmlns`, not of the namespaces of
these, and of some URI. -/
def goodDecl (p : Str × Str) : Bool :=
  decide (p.1 ≠ s% "xml") && decide (p.1 ≠ s% "xmlns") && decide (p.2 ∉ reservedUris) && decide (p.2 ≠ [])

/-- A declaration of a namespace. -/
def isDecl (k : Str) : Bool := decide (k = s% "xmlns") || decide ((splitColon k).1 = s% "xmlns")

/-- The name of an attribute. -/
def attrName (env : List (Str × Str)) (k : Str) : Option Str :=
  if ':' ∈ k then (dget (splitColon k).1 env).map fun u => '{' :: u ++ '}' :: (splitColon k).2 else some k

/-- The names of attributes. -/
def attrNames (env : List (Str × Str)) : List (Str × Str) → Option (List (Str × Str))
  | [] => some []
  | p :: r => match attrName env p.1, attrNames env r with
    | some k, some r => some ((k, p.2) :: r)
    | _, _ => none

/-- An element that is not complete: its name in the start tag, the default namespace and
the prefixes inside, and what is known of it. -/
structure Frame where
  q : Str
  d : Str
  env : List (Str × Str)
  tag : Str
  attrs : List (Str × Str)
  text : Option Str
  kids : List Xml

/-- The element of a start tag, in the default namespace `d` and with the prefixes `env`. -/
def frame (d : Str) (env : List (Str × Str)) (q : Str) (as : List (Str × Str)) : Option Frame :=
  if goodName q = true ∧ (∀ p ∈ as, goodName p.1 = true) ∧ (as.map Prod.fst).Nodup ∧
      (∀ p ∈ declared as, goodDecl p = true) ∧ (∀ p ∈ as, p.1 = s% "xmlns" → p.2 ∉ reservedUris) then
    let env' := declared as ++ env
    let d' := defaultNs d as
    match (if ':' ∈ q then (dget (splitColon q).1 env').map fun u => '{' :: u ++ '}' :: (splitColon q).2
        else some (d' ++ q)), attrNames env' (as.filter fun p => !isDecl p.1) with
    | some tag, some as => some ⟨q, d', env', tag, as, none, []⟩
    | _, _ => none
  else none

/-- The complete element. -/
def Frame.elem (f : Frame) : Xml := .mk f.tag f.attrs f.text f.kids

/-- The element of a list of tokens; the list of frames are the open elements. -/
def build : List Tok → List Frame → Option Xml
  | [], _ => none
  | .op q as b :: r, [] => match frame [] [] q as with
    | some f => if b then (if r = [] then some f.elem else none) else build r [f]
    | none => none
  | .op q as b :: r, g :: fs => match frame g.d g.env q as with
    | some f => if b then build r ({ g with kids := g.kids ++ [f.elem] } :: fs) else build r (f :: g :: fs)
    | none => none
  | _ :: _, [] => none
  | .tx s :: r, f :: fs =>
    build r ({ f with text := if f.text.isNone && f.kids.isEmpty then some s else f.text } :: fs)
  | .cl q :: r, [f] => if q = f.q ∧ r = [] then some f.elem else none
  | .cl q :: r, f :: g :: fs =>
    if q = f.q then build r ({ g with kids := g.kids ++ [f.elem] } :: fs) else none

/-- Line ends become line feeds (XML 1.0, 2.11); the flag says that the last character was a
carriage return. -/
def lineEnds : Bool → Str → Str
  | _, [] => []
  | b, c :: r =>
    if c = '\r' then '\n' :: lineEnds true r
    else if b = true ∧ c = '\n' then lineEnds false r
    else c :: lineEnds false r

/-- `fromstring`. -/
def fromstring (s : Str) : Except FErr Xml :=
  match lex (s.length + 1) (lineEnds false s) with
  | none => .error (.xml 0)
  | some ts => match build ts [] with
    | none => .error (.xml 0)
    | some e => .ok e

/-- `parse`. -/
def parseFile : File → Except FErr Xml
  | .zip _ => .error (.xml 0)
  | .plain b => match b.toByteArray.utf8Decode? with
    | some a => fromstring a.toList
    | none => .error (.xml 0)

/-- `xml.etree.ElementTree` with the table of prefixes `m`: `tostring` knows no
`pretty_print`, `XMLParser` no `huge_tree` (`TypeError`), and there is no `XMLSchema`. -/
def lib (m : Prefixes) : Etree where
  recovering _ := .error .typeError
  plain := parseFile
  pretty _ _ := .error .typeError
  tostring := tostring m
  fromstring := fromstring
  schema _ := .missing

end Verif.Std
