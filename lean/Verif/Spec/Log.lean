import Verif.Log
import Verif.Spec.Errors
import Verif.Spec.Reading

/-!
# The log: specification
-/

namespace Verif.Spec

/-- The names of the elements whose text is a boolean. -/
def booleanNames : List Str :=
  [s% "visibility", s% "open", s% "extrude", s% "tessellate", s% "fill", s% "outline", s% "refreshVisibility", s% "flyToView",
   s% "interpolate"]

/-- The texts of all booleans in the element are those of `xsd:boolean`, or blank. -/
def PlainBooleans (e : Xml) : Prop :=
  ∀ d, Sub e d → ∀ name ∈ booleanNames, (∃ ns, d.tag = ns ++ name) → ∀ t, d.text = some t →
    strip t ∈ [[], s% "0", s% "1", s% "true", s% "false"]

/-- What was expected instead of the text, as the message says. -/
def expected : GetFn → Str
  | .subBool => s% "Boolean"
  | .subInt => s% "Integer"
  | .subFloat | .attrFloat => s% "Float"
  | .subEnum | .attrEnum => s% "Enum"
  | _ => s% "DateTime"

/-- The record of a reading is about the element: it shows the element and one of its children, or the
element twice if an attribute or the text of the element itself is meant; or it is about
the text of an enumeration that is given in the element.  Strict reading raises an exception
instead of logging a value that is dropped. -/
def About (strict : Bool) (e : Xml) : Record → Prop
  | .dropped _ n d => strict = false ∧ d = e ∧ (n = e ∨ n ∈ e.kids)
  | .coordinates d => d = e
  | .relaxed en t v => v ∈ en.values ∧ lower v = t ∧
      ∃ s, lower s = t ∧ s ≠ v ∧ ((∃ k ∈ e.kids, trimmed k.text = some s) ∨ ∃ a, (a, s) ∈ e.attrs)

end Verif.Spec
