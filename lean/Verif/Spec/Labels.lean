import Verif.Spec.Content
import Verif.Spec.Names

/-!
# Elements, objects and their identifiers: specification
-/

namespace Verif.Spec

variable {F : Type} [PyExt F]

/-- An identifier without the white space around it; a blank one counts as none. -/
def identifier (s : Str) : Option Str := if strip s = [] then none else some (strip s)

/-- The identifiers of an element: its attribute `id` and its attribute `id` in the
namespace `u` of KML. -/
def idsIn (u : Str) (as : List (Str × Str)) : List Str :=
  [s% "id", u ++ s% "id"].filterMap fun a => (dget a as).bind identifier

mutual
/-- The local names and identifiers of an element and all elements in it. -/
def labels (u : Str) : Xml → List (Str × List Str)
  | .mk t as _ ks => (localName t, idsIn u as) :: labelsAll u ks
termination_by structural e => e
/-- The same for several elements. -/
def labelsAll (u : Str) : List Xml → List (Str × List Str)
  | [] => []
  | k :: ks => labels u k ++ labelsAll u ks
termination_by structural l => l
end

/-- The identifier of an object, if it has one. -/
def idOf (attrs : List (Str × Val Cls F)) : List Str :=
  match dget (s% "id") attrs with
  | some (.str s) => (identifier s).toList
  | _ => []

mutual
/-- The element names (of the schemas) and identifiers of an object and all objects in its
attributes, at all depths. -/
def objects : Val Cls F → List (Str × List Str)
  | .obj c _ _ attrs => ((elemName c).name, idOf attrs) :: objectsIn attrs
  | .list l => objectsAll l
  | .none | .str _ | .bool _ | .int _ | .float _ | .enum _ _ | .dt _ | .floats _ | .coords _ | .whens _ | .items _ => []
termination_by structural v => v
/-- The same for all attributes. -/
def objectsIn : List (Str × Val Cls F) → List (Str × List Str)
  | [] => []
  | (_, v) :: r => objects v ++ objectsIn r
termination_by structural l => l
/-- The same for all members of a list. -/
def objectsAll : List (Val Cls F) → List (Str × List Str)
  | [] => []
  | v :: r => objects v ++ objectsAll r
termination_by structural l => l
end

/-- The identifiers in a list of labels. -/
def allIds (l : List (Str × List Str)) : List Str := l.flatMap (·.2)

end Verif.Spec
