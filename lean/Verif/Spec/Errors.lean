import Verif.Base

/-!
# Causes of reading errors
-/

namespace Verif.Spec

/-- `d` is `e` or one of its descendants. -/
inductive Sub : Xml → Xml → Prop where
  | refl (e) : Sub e e
  | kid {e k d} : k ∈ e.kids → Sub k d → Sub e d

/-- The coordinates text of an element has a tuple that is no point. -/
def BadTuple (F : Type) [PyExt F] (d : Xml) : Prop :=
  ∃ t cs p, d.text = some t ∧ tuplesOf (F := F) (latlons t) = some cs ∧ p ∈ cs ∧
    p.length ≠ 2 ∧ p.length ≠ 3

/-- An exception that reading may raise, with its cause in the element `d`, read
as class `c` with the namespace mapping `N`. -/
def Cause {C : Type} [DecidableEq C] (F : Type) [PyExt F] (L : Lib C) (strict : Bool) (N : NsMap)
    (d : Xml) (c : C) : Err → Prop
  | .parseError => strict = true
  | .valueError => ∃ it ∈ L.itemsOf c, it.get = .attrInt ∧
      ∃ id ∈ it.nsIds, ∃ t, d.get (nsGet N id ++ it.node) = some t ∧ t ≠ [] ∧ intParse t = none
  | .schemaError => (L.info c).special = .schema ∧ ∀ it ∈ L.itemsOf c, it.attr = s% "id" →
      ∀ id ∈ it.nsIds, ∀ t, d.get (nsGet N id ++ it.node) = some t → t = []
  | .typeError => (L.info c).special = .track ∨ BadTuple F d
  | _ => False

end Verif.Spec
