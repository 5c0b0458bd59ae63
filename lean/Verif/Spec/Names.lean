import Verif.Spec.Reading

/-!
# Names of children
-/

namespace Verif.Spec

/-- A namespace as ElementTree writes it: empty or `{uri}`. -/
def NsForm (ns : Str) : Prop := ns = [] ∨ ∃ u, ns = u ++ ['}']

/-- All namespaces of a mapping have that form. -/
def NsOk (N : NsMap) : Prop := ∀ p ∈ N, NsForm p.2

/-- The local names of the children an item looks for. -/
def localNames {C : Type} (L : Lib C) (it : Item C) : List Str :=
  match place it.get with
  | .child | .children => [it.node]
  | .object | .objects => it.classes.filterMap fun t => match t with
    | .cls d => some (L.info d).tag
    | _ => none
  | _ => []

end Verif.Spec
