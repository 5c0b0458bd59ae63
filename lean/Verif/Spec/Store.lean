import Verif.Store
import Verif.Spec.Eq
import Verif.Spec.Errors

/-!
# Programs that change objects: specification

Which objects hold which, and which programs a type checker accepts.
-/

namespace Verif.Spec

variable {F : Type} [PyExt F]

/-- Object `r` holds object `s`: as the value, or in the list, of a visible attribute. -/
def HoldsObj (h : Store F) (r s : Nat) : Prop :=
  ∃ b a x, h.objs[r]? = some b ∧ (a, x) ∈ b.attrs ∧ visible b.cls a = true ∧
    (x = .obj s ∨ ∃ l t rs, x = .list l ∧ h.lists[l]? = some (t, .objs rs) ∧ s ∈ rs)

/-- Object `s` is below object `r`, at some depth. -/
inductive Beneath (h : Store F) : Nat → Nat → Prop
  | held {r s} : HoldsObj h r s → Beneath h s r
  | deeper {r s t} : HoldsObj h r s → Beneath h t s → Beneath h t r

/-- Object `r` holds the list `l` as the value of a visible attribute. -/
def HoldsList (h : Store F) (r l : Nat) : Prop :=
  ∃ b a, h.objs[r]? = some b ∧ (a, .list l) ∈ b.attrs ∧ visible b.cls a = true

/-- The object is an instance of one of the classes. -/
def IsA (h : Store F) (r : Nat) (cs : List (PyType Cls)) : Prop :=
  ∃ b, h.objs[r]? = some b ∧ .cls b.cls ∈ cs

/-- The reference has the type the registration item is for.  Lists are annotated with
the classes of the item. -/
def refOk (h : Store F) (it : Item Cls) (x : Ref F) : Prop :=
  match it.get with
  | .xmlSub => x = .val .none ∨ ∃ r, x = .obj r ∧ IsA h r it.classes
  | .xmlSubList => ∃ a l, x = .list a ∧ h.lists[a]? = some (.objs it.classes, l)
  | .coordinates => (∃ p, x = .val (.coords p) ∧ p.all dim23 = true) ∨
      ∃ a l, x = .list a ∧ h.lists[a]? = some (.coords, l)
  | .subDtList | .coordsList => True
  | _ => ∃ v, x = .val v ∧ kindOk dim23 it v = true

/-- The members of a list have the annotated type. -/
def listOk (h : Store F) : ElemTy → Cells F → Prop
  | .objs cs, .objs rs => ∀ r ∈ rs, IsA h r cs
  | .coords, .coords l => l.all dim23 = true
  | .items, .items l => ∀ i ∈ l, i.coord.length = 2 ∨ i.coord.length = 3
  | _, _ => False

/-- The items of a track are in a list of items. -/
def itemsOk (h : Store F) (x : Ref F) : Prop := ∃ a l, x = .list a ∧ h.lists[a]? = some (.items, l)

/-- An argument of a constructor: `None`, or of the type of the item; any list with
suitable members will do. -/
def argOk (h : Store F) (it : Item Cls) (x : Ref F) : Prop :=
  x = .val .none ∨ match it.get with
    | .xmlSubList => ∃ a t rs, x = .list a ∧ h.lists[a]? = some (t, .objs rs) ∧ ∀ r ∈ rs, IsA h r it.classes
    | _ => refOk h it x

/-- The step gives attributes, arguments and lists values of the annotated types. -/
def actOk (h : Store F) : Act F → Prop
  | .list t l => listOk h t l
  | .change a l => ∀ t l', h.lists[a]? = some (t, l') → listOk h t l
  | .make c _ _ kw => (∀ it ∈ fastkml.itemsOf c, argOk h it (kwRef it.attr kw)) ∧
      ((fastkml.info c).special = .track →
        kwRef (s% "track_items") kw = .val .none ∨ itemsOk h (kwRef (s% "track_items") kw))
  | .read v => ∃ strict e c ns nss, parse fastkml strict e c ns nss = .ok v ∧ ∀ d, Sub e d → ¬ BadTuple F d
  | .assign r a x => ∀ b, h.objs[r]? = some b →
      (∀ it ∈ fastkml.itemsOf b.cls, it.attr = a → refOk h it x) ∧
      ((fastkml.info b.cls).special = .track → a = s% "track_items" → itemsOk h x)
  | .rename _ _ => True
  | .append r x => ∀ b a own, h.objs[r]? = some b → growing b.cls = some (a, own) →
      ∀ it ∈ fastkml.itemsOf b.cls, it.attr = a → IsA h x it.classes

/-- What a program that a type checker accepts can lead to, `n` being the recursion
limit. -/
inductive History (n : Nat) : Store F → Prop
  | start : History n .empty
  | step {h} {op : Act F} : History n h → actOk h op → History n (h.next n op)

/-- The step does not hand a list over: lists are passed to constructors other than that
of `Coordinates`, and not assigned to attributes. -/
def Tame : Act F → Prop
  | .assign _ _ x => ∀ l, x ≠ .list l
  | .make c _ _ kw => c = .Coordinates → ∀ l, kwRef (s% "coords") kw ≠ .list l
  | _ => True

/-- Any number of steps that a type checker accepts and that hand no list over. -/
inductive TameSteps (n : Nat) (h : Store F) : Store F → Prop
  | refl : TameSteps n h h
  | step {h'} {op : Act F} : TameSteps n h h' → actOk h' op → Tame op → TameSteps n h (h'.next n op)

end Verif.Spec
