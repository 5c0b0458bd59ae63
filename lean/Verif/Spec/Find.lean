import Verif.Find

/-!
# What a search should find

`Has x y`: `y` is a public attribute of `x`, or an element of one.  `Reach` is its
reflexive and transitive closure.  A position in a tree is the list of the numbers
of the children that lead to it.
-/

namespace Verif.Spec

variable {F : Type}

/-- `v` is neither a string nor an iterable. -/
def Plainly : Val Cls F → Prop
  | .str _ | .list _ | .floats _ | .coords _ | .whens _ | .items _ => False
  | _ => True

/-- `y` is a public attribute of `x`, or an element of a public list attribute. -/
inductive Has : Node F → Node F → Prop where
  | attr {c ns nss attrs a v} : (a, v) ∈ attrs → a.head? ≠ some '_' → Plainly v →
      Has (.val (.obj c ns nss attrs)) (.val v)
  | elem {c ns nss attrs a l v} : (a, .list l) ∈ attrs → a.head? ≠ some '_' → v ∈ l →
      Has (.val (.obj c ns nss attrs)) (.val v)
  | float {c ns nss attrs a l f} : (a, .floats l) ∈ attrs → a.head? ≠ some '_' → f ∈ l →
      Has (.val (.obj c ns nss attrs)) (.val (.float f))
  | coord {c ns nss attrs a l p} : (a, .coords l) ∈ attrs → a.head? ≠ some '_' → p ∈ l →
      Has (.val (.obj c ns nss attrs)) (.tuple p)
  | noTime {c ns nss attrs a l} : (a, .whens l) ∈ attrs → a.head? ≠ some '_' → none ∈ l →
      Has (.val (.obj c ns nss attrs)) (.tuple [])
  | time {c ns nss attrs a l k} : (a, .whens l) ∈ attrs → a.head? ≠ some '_' → some k ∈ l →
      Has (.val (.obj c ns nss attrs)) (.val (.dt k))
  | row {c ns nss attrs a l r} : (a, .items l) ∈ attrs → a.head? ≠ some '_' → r ∈ l →
      Has (.val (.obj c ns nss attrs)) (.row r)
  /-- the prefixes of `name_spaces` -/
  | pfx {c ns nss attrs p u} : (p, u) ∈ nss → Has (.val (.obj c ns nss attrs)) (.val (.str p))
  | moment {k} : Has (.val (.dt k)) (.moment k.dt)
  | resolution {k} : Has (.val (.dt k)) (.resolution k.res)
  | rowTime {r k} : r.when_ = some k → Has (.row r) (.val (.dt k))
  | rowCoord {r} : Has (.row r) (.point r.coord)
  | rowAngle {r a} : r.angle = some a → Has (.row r) (.angle a)
  | rowNoAngle {r} : r.angle = none → Has (.row r) (.val .none)
  | heading {a} : Has (.angle a) (.val (.float a.1))
  | tilt {a} : Has (.angle a) (.val (.float a.2.1))
  | roll {a} : Has (.angle a) (.val (.float a.2.2))

/-- `y` is `x` or can be reached from it through public attributes. -/
inductive Reach : Node F → Node F → Prop where
  | refl (x) : Reach x x
  | step {x y z} : Has x y → Reach y z → Reach x z

/-- `x` has the type and the attribute values that are asked for. -/
def Fits (P : Look F) (q : Query F) (x : Node F) : Prop :=
  (∀ cs, q.ofType = some cs → ∃ c ns nss attrs, x = .val (.obj c ns nss attrs) ∧
    ∃ d ∈ cs, d ∈ (fastkml.info c).mro) ∧
  ∀ k v, (k, v) ∈ q.attrs → ∃ w, P.getattr x k = some w ∧ P.eq w v = true

/-- The node at a position, given the children of every node. -/
def at_ (kids : Node F → List (Node F)) : Node F → List Nat → Option (Node F)
  | n, [] => some n
  | n, i :: p => match (kids n)[i]? with
    | none => none
    | some x => at_ kids x p

/-- A position comes before another: it is an ancestor, or the first difference is
to the left. -/
inductive Before : List Nat → List Nat → Prop where
  | nil {i p} : Before [] (i :: p)
  | left {i j p q} : i < j → Before (i :: p) (j :: q)
  | cons {i p q} : Before p q → Before (i :: p) (i :: q)

end Verif.Spec
