import Verif.Spec.Canonical

/-!
# Elements with less in them

`Within e e'`: the document `e` is the document `e'` with some XML attributes, some
texts and some elements that hold nothing but a text left out.
-/

namespace Verif.Spec

mutual
/-- The element is the other one with something left out. -/
inductive Within : Xml → Xml → Prop where
  | mk {tag : Str} {as bs : List (Str × Str)} {t u : Option Str} {ks ls : List Xml} :
    (∀ p ∈ as, p ∈ bs) → (t = none ∨ t = u) → WithinKids ks ls → Within (.mk tag as t ks) (.mk tag bs u ls)
/-- The same for the children, which stay in order. -/
inductive WithinKids : List Xml → List Xml → Prop where
  | nil : WithinKids [] []
  | keep {k l : Xml} {ks ls : List Xml} : Within k l → WithinKids ks ls → WithinKids (k :: ks) (l :: ls)
  | omit {tag text : Str} {ks ls : List Xml} : WithinKids ks ls → WithinKids ks (.mk tag [] (some text) [] :: ls)
end

/-- Numbers written in the source code are numbers: float literals and floats of integers
are not NaN. -/
class LiteralExt (F : Type) [PyExt F] : Prop where
  dec : ∀ n d, PyExt.isNaN (PyExt.ofDec n d : F) = false
  int : ∀ i, PyExt.isNaN (PyExt.ofInt i : F) = false

end Verif.Spec
