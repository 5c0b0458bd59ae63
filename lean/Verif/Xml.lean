import Verif.Py

/-!
# Element trees

`fastkml.types.Element` (fastkml/types.py:42-80): what fastkml uses of
`lxml.etree` / `xml.etree.ElementTree`.  fastkml never reads tails, and
`find`/`findall` with a tag never return comments; how comments and processing
instructions affect `text` is in `Verif.Nodes`.
-/

namespace Verif

/-- An element: expanded tag (`{uri}local` or `local`), attributes, text, children. -/
inductive Xml where
  | mk (tag : Str) (attrs : List (Str × Str)) (text : Option Str) (kids : List Xml)
deriving Inhabited

namespace Xml

/-- `element.tag`. -/
def tag : Xml → Str | .mk t _ _ _ => t
/-- `element.attrib`. -/
def attrs : Xml → List (Str × Str) | .mk _ a _ _ => a
/-- `element.text`. -/
def text : Xml → Option Str | .mk _ _ t _ => t
/-- `list(element)`. -/
def kids : Xml → List Xml | .mk _ _ _ k => k

/-- `etree.Element(tag)` (fastkml/base.py:170). -/
def new (tag : Str) : Xml := .mk tag [] none []

/-- `element.set(key, value)` (fastkml/helpers.py:306, 413, 449, 486). -/
def setAttr (e : Xml) (k v : Str) : Xml := .mk e.tag (dset k v e.attrs) e.text e.kids

/-- `element.text = value` (fastkml/helpers.py:228, fastkml/geometry.py:174). -/
def setText (e : Xml) (t : Str) : Xml := .mk e.tag e.attrs (some t) e.kids

/-- `element.append(child)` / `etree.SubElement` (fastkml/helpers.py:598, 637). -/
def append (e : Xml) (k : Xml) : Xml := .mk e.tag e.attrs e.text (e.kids ++ [k])

/-- Append several children in order. -/
def appends (e : Xml) (ks : List Xml) : Xml := .mk e.tag e.attrs e.text (e.kids ++ ks)

/-- `subelement = SubElement(parent, tag); subelement.text = text`. -/
def leaf (tag text : Str) : Xml := .mk tag [] (some text) []

/-- `element.find(tag)` for a plain tag (fastkml/helpers.py:706, 792, ...): the
first child with that tag. -/
def find (e : Xml) (t : Str) : Option Xml := e.kids.find? (fun k => decide (k.tag = t))

/-- `element.findall(tag)` (fastkml/helpers.py:1144, 1196, 1279). -/
def findall (e : Xml) (t : Str) : List Xml := e.kids.filter (fun k => decide (k.tag = t))

/-- `element.get(key)` (fastkml/helpers.py:741, 886, 971, 1081). -/
def get (e : Xml) (k : Str) : Option Str := dget k e.attrs

end Xml
end Verif
