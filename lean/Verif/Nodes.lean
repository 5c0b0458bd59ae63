import Verif.Files

/-!
# Comments and processing instructions

A document as it is in the file, with comments and processing instructions, and the element
trees that the two XML libraries make of it.  fastkml reads elements only by `find`,
`findall`, `get`, `tag` and `text` (fastkml/helpers.py:642-1290, fastkml/geometry.py:183-236,
fastkml/kml.py:235-250); `find` and `findall` with a tag return no comments.  So what matters
is which characters are in `text`.
-/

set_option linter.unusedSectionVars false
set_option linter.unusedSimpArgs false

namespace Verif

/-- What is between the start tag and the end tag of an element. -/
inductive XNode where
  /-- Character data (also from CDATA sections and entities). -/
  | text (s : Str)
  /-- A comment or a processing instruction. -/
  | note (s : Str)
  | elem (tag : Str) (attrs : List (Str × Str)) (content : List XNode)
deriving Inhabited

/-- `element.text` of `lxml` before `None` is put for the empty text: the character data
before the first node.  The parser that fastkml makes keeps comments and processing
instructions (fastkml/kml.py:99-105: no `remove_comments`, no `remove_pis`; likewise
`fromstring`, fastkml/base.py:450), the text after them is their `tail`. -/
def lxmlText : List XNode → Str
  | .text s :: r => s ++ lxmlText r
  | _ => []

/-- `element.text` of `xml.etree.ElementTree` before `None` is put for the empty text: its
`TreeBuilder` drops comments and processing instructions without closing the text before
them (`_handle_single`, ElementTree.py:1491-1499). -/
def stdText : List XNode → Str
  | .text s :: r => s ++ stdText r
  | .note _ :: r => stdText r
  | _ => []

/-- Without characters `element.text` is `None`. -/
def someText (s : Str) : Option Str := if s = [] then none else some s

mutual
/-- The element of a node, where `lead` finds the `text`. -/
def viewNode (lead : List XNode → Str) : XNode → List Xml
  | .elem t a ns => [.mk t a (someText (lead ns)) (viewNodes lead ns)]
  | .text _ => []
  | .note _ => []
termination_by structural n => n
/-- The elements among the nodes. -/
def viewNodes (lead : List XNode → Str) : List XNode → List Xml
  | [] => []
  | n :: r => viewNode lead n ++ viewNodes lead r
termination_by structural l => l
end

/-- The root element that `config.etree.fromstring` (fastkml/base.py:450) or
`config.etree.parse(…).getroot()` (fastkml/kml.py:99-108, 237) returns: comments before and
after it are not in it. -/
def viewRoot (lead : List XNode → Str) (t : Str) (a : List (Str × Str)) (content : List XNode) : Xml :=
  .mk t a (someText (lead content)) (viewNodes lead content)

end Verif
