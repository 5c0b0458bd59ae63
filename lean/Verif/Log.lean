import Verif.Base

/-!
# What reading logs

`Base.lean` gives the result of `class_from_element`.  This file is the same code once more,
with the calls of `logger.warning` and `logger.error` that reading makes.  It covers
`handle_error` (fastkml/helpers.py:103-146), `handle_invalid_geometry_error`
(fastkml/geometry.py:101-135) and `RelaxedEnum._missing_` (fastkml/enums.py:73-91).  A
record is kept as what its message shows; the serialised elements are the elements.
-/

namespace Verif

/-- A record of the log. -/
inductive Record where
  /-- `Error parsing '{node}' in '{element}'; expected: {expected}` (fastkml/helpers.py:140-146). -/
  | dropped (expected : Str) (node element : Xml)
  /-- `Invalid coordinates in '{element}'` (fastkml/geometry.py:131-132). -/
  | coordinates (element : Xml)
  /-- `{cls}: Found case-insensitive match for {text} in {value}` (fastkml/enums.py:80-85). -/
  | relaxed (en : EnumId) (text value : Str)

/-- A result and what was logged on the way. -/
structure Logged (α : Type) where
  log : List Record
  res : Except Err α

/-- A value, without logging. -/
def Logged.value {α : Type} (a : α) : Logged α := ⟨[], .ok a⟩

/-- An exception, without logging. -/
def Logged.raise {α : Type} (e : Err) : Logged α := ⟨[], .error e⟩

/-- One thing after the other, unless the first raises. -/
def Logged.andThen {α β : Type} (x : Logged α) (f : α → Logged β) : Logged β :=
  match x.res with
  | .error e => ⟨x.log, .error e⟩
  | .ok a => ⟨x.log ++ (f a).log, (f a).res⟩

/-- Log first. -/
def Logged.after {α : Type} (l : List Record) (x : Logged α) : Logged α := ⟨l ++ x.log, x.res⟩

/-- `handle_error` (fastkml/helpers.py:103-146): nothing is logged when it raises. -/
def handleErrorL {α : Type} (strict : Bool) (expected : Str) (node element : Xml) (cont : Logged α) : Logged α :=
  if strict then .raise .parseError else cont.after [.dropped expected node element]

/-- What `enum_class(text)` logs (fastkml/enums.py:73-91). -/
def enumLog (en : EnumId) (text : Str) : List Record :=
  if text ∈ en.values then []
  else match en.values.find? fun v => decide (lower v = lower text) with
    | some v => [.relaxed en (lower text) v]
    | none => []

variable {C F : Type} [DecidableEq C] [PyExt F]

/-- The scalar sub-element readers, `getSub`; `pre` is what the conversion logs. -/
def getSubL {α : Type} (pre : Str → List Record) (conv : Str → Option α) (expected : Str) (e : Xml) (tag : Str) (strict : Bool) :
    Logged (Option α) :=
  match e.find tag with
  | none => .value none
  | some n => match strippedText n.text with
    | none => .value none
    | some t => .after (pre t) (match conv t with
      | some a => .value (some a)
      | none => handleErrorL strict expected n e (.value none))

/-- The attribute readers, `getAttr`: the node of the message is the element
(fastkml/helpers.py:975-981, 1091-1097). -/
def getAttrL {α : Type} (pre : Str → List Record) (conv : Str → Option α) (expected : Str) (e : Xml) (key : Str) (strict : Bool) :
    Logged (Option α) :=
  match getAttrText e key with
  | none => .value none
  | some t => .after (pre t) (match conv t with
    | some a => .value (some a)
    | none => handleErrorL strict expected e e (.value none))

/-- `datetime_subelement_list_kwarg`, `getDts` (fastkml/helpers.py:1145-1157). -/
def getDtsL (arrowGet : Str → Option (Date × Time)) (strict : Bool) (e : Xml) : List Xml → Logged (List (Option KmlDateTime))
  | [] => .value []
  | n :: ns => match n.text with
    | none => .raise .typeError
    | some t => match KmlDateTime.parse arrowGet t with
      | some k => (getDtsL arrowGet strict e ns).andThen fun r => .value (some k :: r)
      | none => handleErrorL strict (s% "DateTime") n e (getDtsL arrowGet strict e ns)

/-- `get_coord_args`, `getCoordArgs` (fastkml/helpers.py:1161-1181). -/
def getCoordArgsL (strict : Bool) (e : Xml) : List Xml → Logged (List (Pt F))
  | [] => .value []
  | n :: ns => match n.text with
    | none => getCoordArgsL strict e ns
    | some t =>
      if t.isEmpty then getCoordArgsL strict e ns
      else match floatsOf (splitWs t) with
        | some c => (getCoordArgsL strict e ns).andThen fun r => .value (c :: r)
        | none => handleErrorL strict (s% "Coordinates") n e (getCoordArgsL strict e ns)

/-- `subelement_coordinates_kwarg`, `getCoordinates` (fastkml/geometry.py:177-225): the error
is logged in both modes (fastkml/geometry.py:131-135). -/
def getCoordinatesL (e : Xml) (strict : Bool) : Logged (Option (List (Pt F))) :=
  match e.text with
  | none => .value none
  | some t => match tuplesOf (latlons t) with
    | some cs => .value (some cs)
    | none => .after [.coordinates e] (if strict then .raise .parseError else .value none)

/-- A child element, with what reading it logs. -/
structure LKid (C F : Type) where
  tag : Str
  read : C → Str → NsMap → Logged (Val C F)

/-- `xml_subelement_kwarg`, `getXmlSub` (fastkml/helpers.py:1201-1243). -/
def getXmlSubL (L : Lib C) (kids : List (LKid C F)) (ns : Str) (nss : NsMap) :
    List (PyType C) → Logged (Option (Val C F))
  | [] => .value none
  | .cls c :: cs => match kids.find? (fun k => decide (k.tag = ns ++ (L.info c).tag)) with
    | some k => (k.read c ns nss).andThen fun v => .value (some v)
    | none => getXmlSubL L kids ns nss cs
  | _ :: _ => .raise .illTyped

/-- `readAll` (fastkml/helpers.py:1283-1291). -/
def readAllL (c : C) (ns : Str) (nss : NsMap) : List (LKid C F) → Logged (List (Val C F))
  | [] => .value []
  | k :: ks => (k.read c ns nss).andThen fun v => (readAllL c ns nss ks).andThen fun vs => .value (v :: vs)

/-- `xml_subelement_list_kwarg`, `getXmlSubList` (fastkml/helpers.py:1246-1293). -/
def getXmlSubListL (L : Lib C) (kids : List (LKid C F)) (ns : Str) (nss : NsMap) :
    List (PyType C) → Logged (List (Val C F))
  | [] => .value []
  | .cls c :: cs => (readAllL c ns nss (kids.filter (fun k => decide (k.tag = ns ++ (L.info c).tag)))).andThen fun vs =>
      (getXmlSubListL L kids ns nss cs).andThen fun ws => .value (vs ++ ws)
  | _ :: _ => .raise .illTyped

/-- `wrap`. -/
def Logged.wrap {α : Type} (f : α → Val C F) (r : Logged (Option α)) : Logged (Option (Val C F)) := ⟨r.log, Verif.wrap f r.res⟩

/-- `nonEmptyList` (fastkml/helpers.py:1158, 1198). -/
def Logged.nonEmpty {α : Type} (r : Logged (List α)) : Logged (Option (List α)) := ⟨r.log, nonEmptyList r.res⟩

/-- No logging in the conversion. -/
def noLog (_ : Str) : List Record := []

/-- `item.get_kwarg(...)`, `getKwarg` (fastkml/base.py:357-365). -/
def getKwargL (L : Lib C) (it : Item C) (strict : Bool) (ns : Str) (nss : NsMap)
    (e : Xml) (kids : List (LKid C F)) : Logged (Option (Val C F)) :=
  match it.get with
  | .nodeText => .value ((getNodeText e).map .str)
  | .subText => .value ((getSubText e (ns ++ it.node)).map .str)
  | .attrText => .value ((getAttrText e (ns ++ it.node)).map .str)
  | .subBool =>
    match it.classes with
    | [.bool] => .wrap .bool
        (getSubL noLog (fun t => getBooleanValue F t strict) (s% "Boolean") e (ns ++ it.node) strict)
    | _ => .raise .illTyped
  | .subInt => .wrap .int (getSubL noLog intParse (s% "Integer") e (ns ++ it.node) strict)
  | .attrInt => .wrap .int ⟨[], getAttrInt e (ns ++ it.node)⟩
  | .subFloat => .wrap .float (getSubL noLog PyExt.parse (s% "Float") e (ns ++ it.node) strict)
  | .attrFloat => .wrap .float (getAttrL noLog PyExt.parse (s% "Float") e (ns ++ it.node) strict)
  | .subEnum =>
    match it.classes with
    | [.enum en] => .wrap (.enum en)
        (getSubL (enumLog en) (fun t => getEnumValue en t strict) (s% "Enum") e (ns ++ it.node) strict)
    | _ => .raise .illTyped
  | .attrEnum =>
    match it.classes with
    | [.enum en] => .wrap (.enum en)
        (getAttrL (enumLog en) (fun t => getEnumValue en t strict) (s% "Enum") e (ns ++ it.node) strict)
    | _ => .raise .illTyped
  | .subDt => .wrap .dt
      (getSubL noLog (KmlDateTime.parse (PyExt.arrowGet F)) (s% "DateTime") e (ns ++ it.node) strict)
  | .subDtList => .wrap .whens (.nonEmpty
      (getDtsL (PyExt.arrowGet F) strict e (e.findall (ns ++ it.node))))
  | .coordsList => .wrap .coords (.nonEmpty
      (getCoordArgsL strict e (e.findall (ns ++ it.node))))
  | .coordinates => .wrap .coords (getCoordinatesL e strict)
  | .xmlSub => getXmlSubL L kids ns nss it.classes
  | .xmlSubList => (getXmlSubListL L kids ns nss it.classes).andThen fun vs => .value (some (.list vs))

/-- The inner loop over `item.ns_ids`, `tryNs` (fastkml/base.py:356-370). -/
def tryNsL (L : Lib C) (it : Item C) (strict : Bool) (nss : NsMap) (e : Xml)
    (kids : List (LKid C F)) : List Str → Logged (Option (Val C F))
  | [] => .value none
  | id :: ids => (getKwargL L it strict (nsGet nss id) nss e kids).andThen fun r => match r with
    | some v => .value (some v)
    | none => tryNsL L it strict nss e kids ids

/-- The outer loop over the registry items, `getKwargs` (fastkml/base.py:355-371). -/
def getKwargsL (L : Lib C) (strict : Bool) (nss : NsMap) (e : Xml) (kids : List (LKid C F)) :
    List (Item C) → List (Str × Val C F) → Logged (List (Str × Val C F))
  | [], kw => .value kw
  | it :: its, kw => (tryNsL L it strict nss e kids it.nsIds).andThen fun r => match r with
    | none => getKwargsL L strict nss e kids its kw
    | some v => getKwargsL L strict nss e kids its (dset it.attr v kw)

/-- `class_from_element`, `parseStep` (fastkml/base.py:373-410).  The constructors that
reading calls log nothing: `IconStyle` warns of an `icon_href` only (fastkml/styles.py:480-484),
which is not registered. -/
def parseStepL (L : Lib C) (strict : Bool) (e : Xml) (kids : List (LKid C F)) (c : C) (ns : Str)
    (nss : NsMap) : Logged (Val C F) :=
  (getKwargsL L strict (mergeNs nss) e kids (L.itemsOf c) []).andThen fun kw => ⟨[], construct L c ns (mergeNs nss) kw⟩

mutual
/-- `cls.class_from_element(ns=ns, name_spaces=nss, element=e, strict=strict)`, `parse`. -/
def parseL (L : Lib C) (strict : Bool) : Xml → C → Str → NsMap → Logged (Val C F)
  | .mk tag attrs text kids => fun c ns nss =>
    parseStepL L strict (.mk tag attrs text kids) (parseKidsL L strict kids) c ns nss
termination_by structural e => e

/-- The children. -/
def parseKidsL (L : Lib C) (strict : Bool) : List Xml → List (LKid C F)
  | [] => []
  | k :: ks => ⟨k.tag, parseL L strict k⟩ :: parseKidsL L strict ks
termination_by structural l => l
end

end Verif
