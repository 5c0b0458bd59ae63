import Verif.Nodes
import Verif.Spec.Reading

/-!
# Specification: documents with comments
-/

set_option linter.unusedSectionVars false
set_option linter.unusedSimpArgs false

namespace Verif.Spec

/-- The second content is the first with comments or processing instructions added anywhere,
also in the middle of texts. -/
inductive Commented : List XNode → List XNode → Prop where
  | nil : Commented [] []
  | note (s : Str) {r r'} (h : Commented r r') : Commented r (.note s :: r')
  | cut (a b : Str) {r r'} (h : Commented (.text b :: r) r') : Commented (.text (a ++ b) :: r) (.text a :: r')
  | text (s : Str) {r r'} (h : Commented r r') : Commented (.text s :: r) (.text s :: r')
  | elem (t : Str) (a : List (Str × Str)) {ns ns' r r'} (hn : Commented ns ns') (h : Commented r r') :
      Commented (.elem t a ns :: r) (.elem t a ns' :: r')

/-- The content has no comments and processing instructions, at any depth. -/
inductive Uncommented : List XNode → Prop where
  | nil : Uncommented []
  | text (s : Str) {r} (h : Uncommented r) : Uncommented (.text s :: r)
  | elem (t : Str) (a : List (Str × Str)) {ns r} (hn : Uncommented ns) (h : Uncommented r) :
      Uncommented (.elem t a ns :: r)

/-- The characters before the first child element and the first comment. -/
def before : List XNode → Str
  | .text s :: r => s ++ before r
  | _ => []

/-- The characters before the first child element and after the first comment. -/
def after : List XNode → Str
  | .text _ :: r => after r
  | .note _ :: r => rest r
  | _ => []
where
  /-- The characters before the first child element. -/
  rest : List XNode → Str
    | .text s :: r => s ++ rest r
    | .note _ :: r => rest r
    | _ => []

/-- The comments directly in an element with the tag `t` do not separate its value: there
is only white space between the first of them and the first child element.  In a `when`
there is not even white space, in `coordinates`, `coord` and `angles` only if the
value is before the comment. -/
structure QuietIn (t : Str) (content : List XNode) : Prop where
  blank : ∀ c ∈ after content, isSpace c = true
  kept : localName t ∈ [s% "coordinates", s% "coord", s% "angles"] →
    after content = [] ∨ ∃ c ∈ before content, isSpace c = false
  when_ : localName t = s% "when" → after content = []

/-- `QuietIn` for every element. -/
inductive Quiet : List XNode → Prop where
  | nil : Quiet []
  | text (s : Str) {r} (h : Quiet r) : Quiet (.text s :: r)
  | note (s : Str) {r} (h : Quiet r) : Quiet (.note s :: r)
  | elem (t : Str) (a : List (Str × Str)) {ns r} (ht : QuietIn t ns) (hn : Quiet ns) (h : Quiet r) :
      Quiet (.elem t a ns :: r)

end Verif.Spec
