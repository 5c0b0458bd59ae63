import Verif.Base

/-!
# Well-typed objects

`typed L P v`: `v` is an object whose registered attributes hold values of the
annotated types, at every depth.  `P` is a condition on coordinate tuples.
-/

namespace Verif.Spec

variable {C F : Type} [DecidableEq C]

/-- `v` is an instance of one of the classes. -/
def isInst (cs : List (PyType C)) : Val C F → Bool
  | .obj c _ _ _ => decide (.cls c ∈ cs)
  | _ => false

/-- The value has the type the registration item is for. -/
def kindOk (P : Pt F → Bool) (it : Item C) (v : Val C F) : Bool :=
  match it.get with
  | .nodeText | .subText | .attrText => match v with
    | .none => true
    | .str _ => true
    | _ => false
  | .subBool => match v with
    | .none => true
    | .bool _ => true
    | _ => false
  | .subInt | .attrInt => match v with
    | .none => true
    | .int _ => true
    | _ => false
  | .subFloat | .attrFloat => match v with
    | .none => true
    | .float _ => true
    | .int _ => true
    | _ => false
  | .subEnum | .attrEnum => match v with
    | .none => true
    | .enum e x => decide (it.classes = [.enum e]) && decide (x ∈ e.values)
    | _ => false
  | .subDt => match v with
    | .none => true
    | .dt _ => true
    | _ => false
  | .coordinates => match v with
    | .coords l => l.all P
    | _ => false
  | .xmlSub => match v with
    | .none => true
    | v => isInst it.classes v
  | .xmlSubList => match v with
    | .list l => l.all (isInst it.classes)
    | _ => false
  -- the computed properties of `gx.Track`
  | .subDtList | .coordsList => true

/-- `getattr(obj, a, None)`. -/
def attr (a : Str) (attrs : List (Str × Val C F)) : Val C F := (dget a attrs).getD .none

/-- A track stores a list of items, each with a point. -/
def trackOk (attrs : List (Str × Val C F)) : Bool :=
  match attr (s% "track_items") attrs with
  | .items l => l.all fun i => decide (i.coord.length = 2 ∨ i.coord.length = 3)
  | _ => false

/-- The attributes of an instance of `c` have the right types. -/
def objOk (L : Lib C) (P : Pt F → Bool) (c : C) (attrs : List (Str × Val C F)) : Bool :=
  ((L.itemsOf c).all fun it => kindOk P it (attr it.attr attrs)) &&
  (decide ((L.info c).special ≠ .track) || trackOk attrs)

mutual
/-- An object is well typed if its attributes have the right types and the
objects among its attributes and in its list attributes are well typed. -/
def typed (L : Lib C) (P : Pt F → Bool) : Val C F → Bool
  | .obj c _ _ attrs => objOk L P c attrs && typedAttrs L P attrs
  | _ => true
termination_by structural v => v
/-- The members of a list. -/
def typedElems (L : Lib C) (P : Pt F → Bool) : Val C F → Bool
  | .list l => typedList L P l
  | _ => true
termination_by structural v => v
/-- All attributes. -/
def typedAttrs (L : Lib C) (P : Pt F → Bool) : List (Str × Val C F) → Bool
  | [] => true
  | (_, v) :: r => typed L P v && typedElems L P v && typedAttrs L P r
termination_by structural l => l
/-- All members. -/
def typedList (L : Lib C) (P : Pt F → Bool) : List (Val C F) → Bool
  | [] => true
  | v :: r => typed L P v && typedList L P r
termination_by structural l => l
end

/-- No condition on coordinate tuples. -/
def anyPt : Pt F → Bool := fun _ => true

/-- Two or three components. -/
def dim23 : Pt F → Bool := fun p => decide (p.length = 2 ∨ p.length = 3)

end Verif.Spec
