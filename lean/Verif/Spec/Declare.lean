import Verif.Spec.Extend
import Verif.Lemmas.Written

/-!
# Declared attributes

An attribute that is registered but no parameter of a constructor, compared with one that is.
-/

namespace Verif

variable {C F : Type} [DecidableEq C] [PyExt F]

namespace Spec

/-- How a constructor of the library stores an argument that is read with `g`: text is
trimmed, identifiers and links are kept, lists are copied, all else is stored as it is. -/
def storedAs : GetFn → Norm
  | .nodeText | .subText => .clean
  | .attrText => .orEmpty
  | .xmlSubList => .listOr
  | _ => .raw

/-- The library in which the attribute of `it` is also a parameter of the constructors of `c` and
of the classes that inherit from it. -/
def declared (L : Lib C) (c : C) (it : Item C) : Lib C where
  info d := if c ∈ (L.info d).mro then
    { L.info d with slots := (L.info d).slots ++ [(it.attr, storedAs it.get)] } else L.info d
  reg := L.reg.register c it

/-- The value of a parameter that was not given. -/
def isUnset (g : GetFn) : Val C F → Bool
  | .none => true
  | .str s => decide (g = .attrText) && s.isEmpty
  | _ => false

/-- The object with the attribute of `it` not as an attribute that the constructor sets, but as one
that is there only if it was given. -/
def asExtra (L : Lib C) (c : C) (it : Item C) : Val C F → Val C F :=
  mapObjects fun d attrs =>
    if Inherits L d c then
      (if isUnset it.get (attr it.attr attrs) then [] else [(it.attr, attr it.attr attrs)]) ++
        attrs.filter (fun p => decide (p.1 ≠ it.attr))
    else attrs

/-- An item that can be registered for `c` next to the items that are there: its reader and its
writer belong together, and it uses names that no other item of the class uses. -/
structure Suitable (L : Lib C) (c : C) (it : Item C) : Prop where
  get : it.get ≠ .coordinates ∧ it.get ≠ .coordsList ∧ it.get ≠ .subDtList
  set : it.set = setOf it.get
  classes : classesOk it = true
  dflt : dfltOk it = true
  attrDflt : it.get = .attrText → it.dflt = .none
  ids : it.nsIds ≠ []
  node : '}' ∉ it.node
  names : (localNames L it).Nodup ∧ ∀ l ∈ localNames L it, '}' ∉ l
  kml : ∀ d, Inherits L d c → (L.info d).special ≠ .kml
  apart : ∀ d, Inherits L d c → ∀ i ∈ L.itemsOf d,
    (∀ l ∈ localNames L it, l ∉ localNames L i) ∧
    (place it.get = .attr → place i.get = .attr → it.node ≠ i.node) ∧
    ¬ (place it.get = .text ∧ place i.get = .text)

/-- The item looks in the namespaces in which its value is written: text children are written in the
namespace of the object, times in that of KML, objects in their own. -/
structure AtHome (L : Lib C) (c : C) (it : Item C) : Prop where
  attr : place it.get = .attr → [] ∈ it.nsIds
  child : place it.get = .child → ∀ d, Inherits L d c → (L.info d).nsid ∈ it.nsIds
  time : it.get = .subDt → s% "kml" ∈ it.nsIds
  mode : .enum .altitudeMode ∈ it.classes → s% "kml" ∈ it.nsIds ∧ s% "gx" ∈ it.nsIds
  object : ∀ k, .cls k ∈ it.classes → place it.get = .object → (L.info k).nsid ∈ it.nsIds
  objects : ∀ k, .cls k ∈ it.classes → place it.get = .objects → it.nsIds.head? = some (L.info k).nsid

end Spec
end Verif
