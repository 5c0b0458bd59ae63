import Verif.Classes
import Verif.Spec.Canonical
import Verif.Spec.Errors
import Verif.Spec.Names

/-!
# Opening, saving and opening again

What saving a document that was opened, and opening it again, may change: only empty
objects get lost.
-/

namespace Verif.Spec

variable {F : Type} [PyExt F]

/-- Every element that has the local name of a class is in the namespace of that class. -/
def Standard (N : NsMap) (e : Xml) : Prop :=
  ∀ d, Sub e d → ∀ c n, NsForm n → d.tag = n ++ (fastkml.info c).tag → n = nsGet N (fastkml.info c).nsid

/-- The time has a day, or the year has four digits. -/
def FullYear (k : KmlDateTime) : Prop := k.res = .year ∨ k.res = .yearMonth → 1000 ≤ k.dt.day.y

/-- The content of an object that is not lost for other reasons:
* years of times without a day have four digits;
* the rows of a track have numbers as coordinates; a track in the namespace of KML has no
  rows without a time;
* coordinates have two or three components;
* a schema has an id. -/
structure Lasting (c : Cls) (ns : Str) (nss : NsMap) (attrs : List (Str × Val Cls F)) : Prop where
  years : ∀ a k, (a, .dt k) ∈ attrs → FullYear k
  rows : ∀ a l, (a, .items l) ∈ attrs → ∀ r ∈ l,
    (∀ k, r.when_ = some k → FullYear k) ∧ ∀ f ∈ r.coord, PyExt.isNaN f = false
  untimed : ∀ a l, (a, .items l) ∈ attrs → (∃ r ∈ l, r.when_ = none) → ns ≠ nsGet nss (s% "kml")
  points : ∀ a l, (a, .coords l) ∈ attrs → ∀ p ∈ l, p.length = 2 ∨ p.length = 3
  schema : c = .Schema → attr (s% "id") attrs ≠ .none

/-! ## What is left -/

/-- The attribute `v` of an object of class `c`, given the attribute without the empty
objects in it (`y`): an empty object is `None`; `ExtendedData` and `MultiTrack` do not
keep members that have become empty. -/
def kept (c : Cls) (v y : Val Cls F) : Val Cls F :=
  match v, y with
  | .obj _ _ _ _, y => if nonEmpty fastkml v then y else .none
  | .list _, .list l => .list (if c = .ExtendedData ∨ c = .MultiTrack then l.filter (nonEmpty fastkml) else l)
  | v, _ => v

mutual
/-- An object without the empty objects in it. -/
def prune : Val Cls F → Val Cls F
  | .obj c ns nss attrs => .obj c ns nss (pruneAttrs c attrs)
  | .list l => .list (pruneList l)
  | .none => .none
  | .str s => .str s
  | .bool b => .bool b
  | .int i => .int i
  | .float f => .float f
  | .enum e x => .enum e x
  | .dt k => .dt k
  | .floats l => .floats l
  | .coords l => .coords l
  | .whens l => .whens l
  | .items l => .items l
termination_by structural v => v
/-- The attributes. -/
def pruneAttrs (c : Cls) : List (Str × Val Cls F) → List (Str × Val Cls F)
  | [] => []
  | (a, v) :: r => (a, kept c v (prune v)) :: pruneAttrs c r
termination_by structural l => l
/-- The members of a list. -/
def pruneList : List (Val Cls F) → List (Val Cls F)
  | [] => []
  | v :: r => if nonEmpty fastkml v then prune v :: pruneList r else pruneList r
termination_by structural l => l
end

end Verif.Spec
