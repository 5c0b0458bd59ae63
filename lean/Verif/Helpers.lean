import Verif.Info

/-!
# fastkml/helpers.py (and the coordinate functions of fastkml/geometry.py)

The `set_element` functions (writing) and `get_kwarg` functions (reading).
A writer takes the element built so far and returns it with the attribute added;
a reader returns `some v` for the dictionary `{kwarg: v}` and `none` for `{}`.
-/

namespace Verif

variable {C F : Type} [DecidableEq C] [PyExt F]

/-! ## Common -/

/-- `clean_string` (fastkml/helpers.py:98-100). -/
def cleanString : Option Str → Option Str
  | none => none
  | some s => if s.isEmpty then none else if (strip s).isEmpty then none else some (strip s)

/-- `handle_error` (fastkml/helpers.py:103-146): raise in strict mode, else log
and go on.  The same for `handle_invalid_geometry_error`
(fastkml/geometry.py:101-134). -/
def handleError {α : Type} (strict : Bool) (cont : α) : Except Err α :=
  if strict then .error .parseError else .ok cont

/-- `config.NAME_SPACES` (fastkml/config.py:54-62). -/
def defaultNameSpaces : NsMap :=
  [(s% "kml", s% "{http://www.opengis.net/kml/2.2}"),
   (s% "atom", s% "{http://www.w3.org/2005/Atom}"),
   (s% "gx", s% "{http://www.google.com/kml/ext/2.2}")]

/-- `{**config.NAME_SPACES, **name_spaces}` (fastkml/base.py:82, 353, 442). -/
def mergeNs (nss : NsMap) : NsMap := dupdate defaultNameSpaces nss

/-- `name_spaces.get(id, "")` (fastkml/base.py:84, 359; fastkml/helpers.py:152). -/
def nsGet (nss : NsMap) (id : Str) : Str := (dget id nss).getD []

/-- `value.get_ns_id()`; `none` is `AttributeError`
(fastkml/enums.py:161-168, fastkml/times.py:215-218). -/
def nsIdOf : Val C F → Option Str
  | .enum e v => enumNsId e v
  | .dt _ => some (s% "kml")
  | _ => none

/-- `get_ns(obj, value)` (fastkml/helpers.py:149-154). -/
def getNs (ns : Str) (nss : NsMap) (v : Val C F) : Str :=
  match nsIdOf v with
  | some i => nsGet nss i
  | none => ns

/-- The value of a registration default. -/
def Dflt.val : Dflt → Val C F
  | .none => .none
  | .str s => .str s
  | .bool b => .bool b
  | .int i => .int i
  | .enum e v => .enum e v
  | .float n d => .float (PyExt.ofDec n d)
  | .floats l => .floats (l.map fun p => PyExt.ofDec p.1 p.2)

/-- `value == default` (fastkml/helpers.py:183).  Numbers compare by value. -/
def eqDflt (v : Val C F) (d : Dflt) : Bool :=
  match v, d with
  | .none, .none => true
  | .str s, .str t => decide (s = t)
  | .bool a, .bool b => a == b
  | .bool a, .int i => (if a then 1 else 0) == i
  | .int i, .bool a => (if a then 1 else 0) == i
  | .int i, .int j => i == j
  | .float f, .float n d => PyExt.beq f (PyExt.ofDec n d)
  | .float f, .int i => PyExt.beq f (PyExt.ofInt i)
  | .int i, .float n d => PyExt.beq (PyExt.ofInt i) (PyExt.ofDec n d : F)
  | .enum e a, .enum e' b => decide (e = e') && decide (a = b)
  | .floats l, .floats m => ptBeq l (m.map fun p => PyExt.ofDec p.1 p.2)
  | _, _ => false

/-- `get_value` (fastkml/helpers.py:157-183), given `getattr(obj, attr_name, None)`. -/
def getValue (v : Val C F) (vb : Verbosity) (d : Dflt) : Val C F :=
  if v.notNone = false ∧ d ≠ .none ∧ vb = .verbose then d.val
  else if eqDflt v d = true ∧ vb = .terse then .none else v

/-! ## Writing -/

/-- `precision` and `verbosity`.  Simplification: `precision` is not negative. -/
structure Opts where
  precision : Option Nat
  verbosity : Verbosity

/-- An attribute for writing: its value and truth value, its element if it is an
object, and the truth values and elements of its members if it is a list. -/
structure SView (C F : Type) where
  v : Val C F
  truthy : Except Err Bool
  xml : Except Err Xml
  elems : List (Except Err Bool × Except Err Xml)

/-- `str(f)` or `f"{f:.{precision}f}"` (fastkml/helpers.py:563-566,
fastkml/geometry.py:170-173). -/
def fmt (p : Option Nat) (f : F) : Str :=
  match p with
  | none => PyExt.repr f
  | some n => PyExt.fixed n f

/-- The text of a `<coordinates>` element (fastkml/geometry.py:170-174). -/
def coordsText (p : Option Nat) (l : List (Pt F)) : Str :=
  join [' '] (l.map fun c => join [','] (c.map (fmt p)))

/-- The text of a `<gx:coord>` or `<gx:angles>` element (fastkml/helpers.py:563-566). -/
def coordText (p : Option Nat) (c : Pt F) : Str := join [' '] (c.map (fmt p))

/-- The loop of `xml_subelement_list` (fastkml/helpers.py:635-639). -/
def serElems : List (Except Err Bool × Except Err Xml) → Xml → Except Err Xml
  | [], el => .ok el
  | (t, x) :: r, el => match t with
    | .error e => .error e
    | .ok false => serElems r el
    | .ok true => match x with
      | .error e => .error e
      | .ok x => serElems r (el.append x)

/-- `str(value)` where it is used for numbers (fastkml/helpers.py:380, 413, 433,
449). -/
def pyStr : Val C F → Except Err Str
  | .int i => .ok (intRepr i)
  | .float f => .ok (PyExt.repr f)
  | .str s => .ok s
  | .bool b => .ok (if b then s% "True" else s% "False")
  | _ => .error .illTyped

/-- `node_text` (fastkml/helpers.py:186-228). -/
def setNodeText (v : Val C F) (el : Xml) : Except Err Xml :=
  match v with
  | .none => .ok el
  | .str s => if s.isEmpty then .ok el else .ok (el.setText s)
  | _ => .error .illTyped

/-- `text_subelement` (fastkml/helpers.py:231-269). -/
def setSubText (ns node : Str) (v : Val C F) (el : Xml) : Except Err Xml :=
  match v with
  | .none => .ok el
  | .str s => if s.isEmpty then .ok el else .ok (el.append (.leaf (ns ++ node) s))
  | _ => .error .illTyped

/-- `text_attribute` (fastkml/helpers.py:272-306). -/
def setAttrText (node : Str) (v : Val C F) (el : Xml) : Except Err Xml :=
  match v with
  | .none => .ok el
  | .str s => if s.isEmpty then .ok el else .ok (el.setAttr node s)
  | _ => .error .illTyped

/-- `bool_subelement` (fastkml/helpers.py:309-343): `str(int(value))`. -/
def setSubBool (ns node : Str) (v : Val C F) (el : Xml) : Except Err Xml :=
  match v with
  | .none => .ok el
  | .bool b => .ok (el.append (.leaf (ns ++ node) (intRepr (if b then 1 else 0))))
  | .int i => .ok (el.append (.leaf (ns ++ node) (intRepr i)))
  | _ => .error .illTyped

/-- `int_subelement` (fastkml/helpers.py:346-380) and `float_subelement`
(fastkml/helpers.py:416-433): `str(value)`; `precision` is not used. -/
def setSubNum (ns node : Str) (v : Val C F) (el : Xml) : Except Err Xml :=
  match v with
  | .none => .ok el
  | v => match pyStr v with
    | .error e => .error e
    | .ok s => .ok (el.append (.leaf (ns ++ node) s))

/-- `int_attribute` (fastkml/helpers.py:383-413) and `float_attribute`
(fastkml/helpers.py:436-449). -/
def setAttrNum (node : Str) (v : Val C F) (el : Xml) : Except Err Xml :=
  match v with
  | .none => .ok el
  | v => match pyStr v with
    | .error e => .error e
    | .ok s => .ok (el.setAttr node s)

/-- `enum_subelement` (fastkml/helpers.py:452-470). -/
def setSubEnum (ns : Str) (nss : NsMap) (node : Str) (v : Val C F) (el : Xml) : Except Err Xml :=
  match v with
  | .none => .ok el
  | .enum e x => .ok (el.append (.leaf (getNs ns nss (.enum e x : Val C F) ++ node) x))
  | _ => .error .illTyped

/-- `enum_attribute` (fastkml/helpers.py:473-486). -/
def setAttrEnum (node : Str) (v : Val C F) (el : Xml) : Except Err Xml :=
  match v with
  | .none => .ok el
  | .enum _ x => .ok (el.setAttr node x)
  | _ => .error .illTyped

/-- `datetime_subelement` (fastkml/helpers.py:489-511).  `bool(KmlDateTime)` is
always true (fastkml/times.py:171-173). -/
def setSubDt (ns : Str) (nss : NsMap) (node : Str) (v : Val C F) (el : Xml) : Except Err Xml :=
  match v with
  | .none => .ok el
  | .dt k => .ok (el.append (.leaf (getNs ns nss (.dt k : Val C F) ++ node) k.toStr))
  | _ => .error .illTyped

/-- One `<when>` element.  The tuple `()` has no `get_ns_id` and prints as `()`. -/
def whenLeaf (ns : Str) (nss : NsMap) (node : Str) : Option KmlDateTime → Xml
  | some k => .leaf (nsGet nss (s% "kml") ++ node) k.toStr
  | none => .leaf (ns ++ node) (s% "()")

/-- `datetime_subelement_list` (fastkml/helpers.py:514-537). -/
def setSubDtList (ns : Str) (nss : NsMap) (node : Str) (v : Val C F) (el : Xml) :
    Except Err Xml :=
  match v with
  | .none => .ok el
  | .whens l => .ok (el.appends (l.map (whenLeaf ns nss node)))
  | _ => .error .illTyped

/-- `coords_subelement_list` (fastkml/helpers.py:540-566). -/
def setCoordsList (ns node : Str) (p : Option Nat) (v : Val C F) (el : Xml) : Except Err Xml :=
  match v with
  | .none => .ok el
  | .coords l => .ok (el.appends (l.map fun c => .leaf (ns ++ node) (coordText p c)))
  | .floats l => if l.isEmpty then .ok el else .error .typeError
  | _ => .error .illTyped

/-- `coordinates_subelement` (fastkml/geometry.py:137-174).  The default is not
used. -/
def setCoordinates (p : Option Nat) (v : Val C F) (el : Xml) : Except Err Xml :=
  match v with
  | .none => .ok el
  | .coords [] => .ok el
  | .coords (c :: l) =>
    if c.length = 2 ∨ c.length = 3 then .ok (el.setText (coordsText p (c :: l)))
    else .error .writeError
  | _ => .error .illTyped

/-- `xml_subelement` (fastkml/helpers.py:569-603). -/
def setXmlSub (sv : SView C F) (el : Xml) : Except Err Xml :=
  match sv.truthy with
  | .error e => .error e
  | .ok false => .ok el
  | .ok true => match sv.xml with
    | .error e => .error e
    | .ok x => .ok (el.append x)

/-- `xml_subelement_list` (fastkml/helpers.py:606-639). -/
def setXmlSubList (sv : SView C F) (el : Xml) : Except Err Xml :=
  match sv.v with
  | .none => .ok el
  | .list _ => serElems sv.elems el
  | _ => .error .illTyped

/-- `item.set_element(obj=..., element=el, ...)` (fastkml/base.py:174-182). -/
def setElement (it : Item C) (ns : Str) (nss : NsMap) (o : Opts) (sv : SView C F) (el : Xml) :
    Except Err Xml :=
  let v := getValue sv.v o.verbosity it.dflt
  match it.set with
  | .nodeText => setNodeText v el
  | .subText => setSubText ns it.node v el
  | .attrText => setAttrText it.node v el
  | .subBool => setSubBool ns it.node v el
  | .subInt => setSubNum ns it.node v el
  | .attrInt => setAttrNum it.node v el
  | .subFloat => setSubNum ns it.node v el
  | .attrFloat => setAttrNum it.node v el
  | .subEnum => setSubEnum ns nss it.node v el
  | .attrEnum => setAttrEnum it.node v el
  | .subDt => setSubDt ns nss it.node v el
  | .subDtList => setSubDtList ns nss it.node v el
  | .coordsList => setCoordsList ns it.node o.precision v el
  | .coordinates => setCoordinates o.precision sv.v el
  | .xmlSub => setXmlSub sv el
  | .xmlSubList => setXmlSubList sv el

/-! ## Reading -/

/-- The stripped text of a node if it is not blank:
`node.text.strip() if node.text and node.text.strip()`. -/
def strippedText (t : Option Str) : Option Str := cleanString t

/-- `node_text_kwarg` (fastkml/helpers.py:642-674). -/
def getNodeText (e : Xml) : Option Str := strippedText e.text

/-- `subelement_text_kwarg` (fastkml/helpers.py:677-710). -/
def getSubText (e : Xml) (tag : Str) : Option Str :=
  match e.find tag with
  | none => none
  | some n => strippedText n.text

/-- `attribute_text_kwarg` (fastkml/helpers.py:713-742). -/
def getAttrText (e : Xml) (key : Str) : Option Str :=
  match e.get key with
  | none => none
  | some s => if s.isEmpty then none else some s

/-- `_get_boolean_value` (fastkml/helpers.py:745-755); `none` is `ValueError`. -/
def getBooleanValue (F : Type) [PyExt F] (text : Str) (strict : Bool) : Option Bool :=
  let text := if strict then text else lower text
  if text = s% "1" ∨ text = s% "true" then some true
  else if text = s% "0" ∨ text = s% "false" then some false
  else if strict then none
  else (PyExt.parse (F := F) text).map PyExt.truthy

/-- The common shape of the scalar sub-element readers: find the node, take its
stripped non-empty text, convert, `handle_error` on `ValueError`
(fastkml/helpers.py:792-806, 841-855, 922-936, 1027-1048, 1112-1128). -/
def getSub {α : Type} (conv : Str → Option α) (e : Xml) (tag : Str) (strict : Bool) :
    Except Err (Option α) :=
  match e.find tag with
  | none => .ok none
  | some n => match strippedText n.text with
    | none => .ok none
    | some t => match conv t with
      | some a => .ok (some a)
      | none => handleError strict none

/-- The common shape of the attribute readers with `handle_error`
(fastkml/helpers.py:971-982, 1081-1098). -/
def getAttr {α : Type} (conv : Str → Option α) (e : Xml) (key : Str) (strict : Bool) :
    Except Err (Option α) :=
  match getAttrText e key with
  | none => .ok none
  | some t => match conv t with
    | some a => .ok (some a)
    | none => handleError strict none

/-- `attribute_int_kwarg` (fastkml/helpers.py:858-887): the `ValueError` of
`int()` is not handled. -/
def getAttrInt (e : Xml) (key : Str) : Except Err (Option Int) :=
  match getAttrText e key with
  | none => .ok none
  | some t => match intParse t with
    | some i => .ok (some i)
    | none => .error .valueError

/-- The loop of `datetime_subelement_list_kwarg` (fastkml/helpers.py:1145-1157).
`cls.parse(None)` raises `TypeError`; the text is not stripped. -/
def getDts (arrowGet : Str → Option (Date × Time)) (strict : Bool) :
    List Xml → Except Err (List (Option KmlDateTime))
  | [] => .ok []
  | n :: ns => match n.text with
    | none => .error .typeError
    | some t => match KmlDateTime.parse arrowGet t with
      | some k => match getDts arrowGet strict ns with
        | .error e => .error e
        | .ok r => .ok (some k :: r)
      | none => match handleError strict () with
        | .error e => .error e
        | .ok () => getDts arrowGet strict ns

/-- All strings as floats; `none` is `ValueError`. -/
def floatsOf : List Str → Option (List F)
  | [] => some []
  | s :: ss => match PyExt.parse s, floatsOf ss with
    | some f, some fs => some (f :: fs)
    | _, _ => none

/-- `get_coord_args` (fastkml/helpers.py:1161-1181). -/
def getCoordArgs (strict : Bool) : List Xml → Except Err (List (Pt F))
  | [] => .ok []
  | n :: ns => match n.text with
    | none => getCoordArgs strict ns
    | some t =>
      if t.isEmpty then getCoordArgs strict ns
      else match floatsOf (splitWs t) with
        | some c => match getCoordArgs strict ns with
          | .error e => .error e
          | .ok r => .ok (c :: r)
        | none => match handleError strict () with
          | .error e => .error e
          | .ok () => getCoordArgs strict ns

/-- All tuples of a coordinates text; `none` is `ValueError`
(fastkml/geometry.py:214-218). -/
def tuplesOf : List Str → Option (List (Pt F))
  | [] => some []
  | s :: ss => match floatsOf (splitOn ',' s), tuplesOf ss with
    | some c, some cs => some (c :: cs)
    | _, _ => none

/-- The words of a coordinates text (fastkml/geometry.py:210). -/
def latlons (t : Str) : List Str := splitWs (squeeze false (strip t))

/-- `subelement_coordinates_kwarg` (fastkml/geometry.py:177-225). -/
def getCoordinates (e : Xml) (strict : Bool) : Except Err (Option (List (Pt F))) :=
  match e.text with
  | none => .ok none
  | some t => match tuplesOf (latlons t) with
    | some cs => .ok (some cs)
    | none => handleError strict none

/-- A child element for reading: its tag and `cls.class_from_element` applied to
it, as a function of `cls`, `ns` and `name_spaces`. -/
structure Kid (C F : Type) where
  tag : Str
  read : C → Str → NsMap → Except Err (Val C F)

/-- `xml_subelement_kwarg` (fastkml/helpers.py:1201-1243). -/
def getXmlSub (L : Lib C) (kids : List (Kid C F)) (ns : Str) (nss : NsMap) :
    List (PyType C) → Except Err (Option (Val C F))
  | [] => .ok none
  | .cls c :: cs => match kids.find? (fun k => decide (k.tag = ns ++ (L.info c).tag)) with
    | some k => match k.read c ns nss with
      | .error e => .error e
      | .ok v => .ok (some v)
    | none => getXmlSub L kids ns nss cs
  | _ :: _ => .error .illTyped

/-- Read every child in a list with the same class, in order
(fastkml/helpers.py:1283-1291). -/
def readAll (c : C) (ns : Str) (nss : NsMap) : List (Kid C F) → Except Err (List (Val C F))
  | [] => .ok []
  | k :: ks => match k.read c ns nss with
    | .error e => .error e
    | .ok v => match readAll c ns nss ks with
      | .error e => .error e
      | .ok vs => .ok (v :: vs)

/-- `xml_subelement_list_kwarg` (fastkml/helpers.py:1246-1293): the class tuple is
the outer loop, the children the inner one. -/
def getXmlSubList (L : Lib C) (kids : List (Kid C F)) (ns : Str) (nss : NsMap) :
    List (PyType C) → Except Err (List (Val C F))
  | [] => .ok []
  | .cls c :: cs =>
    match readAll c ns nss (kids.filter (fun k => decide (k.tag = ns ++ (L.info c).tag))) with
    | .error e => .error e
    | .ok vs => match getXmlSubList L kids ns nss cs with
      | .error e => .error e
      | .ok ws => .ok (vs ++ ws)
  | _ :: _ => .error .illTyped

/-- Wrap a result. -/
def wrap {α : Type} (f : α → Val C F) (r : Except Err (Option α)) :
    Except Err (Option (Val C F)) :=
  match r with
  | .error e => .error e
  | .ok none => .ok none
  | .ok (some a) => .ok (some (f a))

/-- `{kwarg: l} if l else {}` (fastkml/helpers.py:1158, 1198). -/
def nonEmptyList {α : Type} (r : Except Err (List α)) : Except Err (Option (List α)) :=
  match r with
  | .error e => .error e
  | .ok [] => .ok none
  | .ok (a :: l) => .ok (some (a :: l))

/-- `item.get_kwarg(element=..., ns=ns, name_spaces=..., ...)`
(fastkml/base.py:357-365). -/
def getKwarg (L : Lib C) (it : Item C) (strict : Bool) (ns : Str) (nss : NsMap)
    (e : Xml) (kids : List (Kid C F)) : Except Err (Option (Val C F)) :=
  match it.get with
  | .nodeText => .ok ((getNodeText e).map .str)
  | .subText => .ok ((getSubText e (ns ++ it.node)).map .str)
  | .attrText => .ok ((getAttrText e (ns ++ it.node)).map .str)
  | .subBool =>
    match it.classes with
    | [.bool] => wrap .bool
        (getSub (fun t => getBooleanValue F t strict) e (ns ++ it.node) strict)
    | _ => .error .illTyped
  | .subInt => wrap .int (getSub intParse e (ns ++ it.node) strict)
  | .attrInt => wrap .int (getAttrInt e (ns ++ it.node))
  | .subFloat => wrap .float (getSub PyExt.parse e (ns ++ it.node) strict)
  | .attrFloat => wrap .float (getAttr PyExt.parse e (ns ++ it.node) strict)
  | .subEnum =>
    match it.classes with
    | [.enum en] => wrap (.enum en)
        (getSub (fun t => getEnumValue en t strict) e (ns ++ it.node) strict)
    | _ => .error .illTyped
  | .attrEnum =>
    match it.classes with
    | [.enum en] => wrap (.enum en)
        (getAttr (fun t => getEnumValue en t strict) e (ns ++ it.node) strict)
    | _ => .error .illTyped
  | .subDt => wrap .dt
      (getSub (KmlDateTime.parse (PyExt.arrowGet F)) e (ns ++ it.node) strict)
  | .subDtList => wrap .whens (nonEmptyList
      (getDts (PyExt.arrowGet F) strict (e.findall (ns ++ it.node))))
  | .coordsList => wrap .coords (nonEmptyList
      (getCoordArgs strict (e.findall (ns ++ it.node))))
  | .coordinates => wrap .coords (getCoordinates e strict)
  | .xmlSub => getXmlSub L kids ns nss it.classes
  | .xmlSubList =>
    match getXmlSubList L kids ns nss it.classes with
    | .error e => .error e
    | .ok vs => .ok (some (.list vs))

end Verif
