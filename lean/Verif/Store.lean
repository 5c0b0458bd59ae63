import Verif.Classes

/-!
# Objects with identity: programs that change objects

In the other modules an object is the tree of its attributes.  Here objects and Python
lists have addresses, attributes hold references, and a program makes objects, changes
their attributes and their lists in any order, with any sharing: the same object or list
can be held in many places.

Simplifications: constructors get lists, not other iterables (a tuple of coordinate tuples
is an immutable value); `geometry=` arguments are left to `Verif/Make.lean`; a list of
`KmlDateTime` is an immutable value, because only the constructor of `gx.Track` reads it
and copies it; the dictionary `name_spaces` of an object belongs to it alone
(fastkml/base.py:82) and is not changed.  Read-only properties other than those of
`gx.Track` are not registered; assigning to them is not modelled.
-/

namespace Verif

variable {F : Type} [PyExt F]

/-- What a variable, an attribute or an argument holds: an immutable value, an object or
a list, the latter two by address. -/
inductive Ref (F : Type) where
  | val (v : Val Cls F)
  | obj (r : Nat)
  | list (a : Nat)

/-- The contents of a Python list: objects by address, coordinate tuples, or items of a
track. -/
inductive Cells (F : Type) where
  | objs (l : List Nat)
  | coords (l : List (Pt F))
  | items (l : List (TrackItem F))

/-- The element type that annotations give to a list.  Python ignores it, and so does the
model: it is kept to say what a type checker accepts. -/
inductive ElemTy where
  | objs (cs : List (PyType Cls))
  | coords
  | items
deriving DecidableEq

/-- An object: class, `self.ns`, `self.name_spaces` and the other attributes. -/
structure Cell (F : Type) where
  cls : Cls
  ns : Str
  nss : NsMap
  attrs : List (Str × Ref F)

/-- The objects and lists, in order of creation; the address is the position. -/
structure Store (F : Type) where
  objs : List (Cell F)
  lists : List (ElemTy × Cells F)

/-- Before anything is made. -/
def Store.empty : Store F := ⟨[], []⟩

/-- How an operation stops: an exception that `Err` lists, `AttributeError`, or
`RecursionError`. -/
inductive Halt where
  | raised (e : Err)
  | attributeError
  | recursion
deriving DecidableEq, Repr

/-! ## What an object looks like -/

/-- The attributes that writing, `__bool__` and `geometry` read: those registered
(fastkml/base.py:173-182) and the items of a track, from which the registered `whens`,
`coords` and `angles` are computed (fastkml/gx.py:318-359). -/
def visible (c : Cls) (a : Str) : Bool :=
  ((fastkml.itemsOf c).any fun it => decide (it.attr = a) && match it.get with
    | .subDtList | .coordsList => false
    | _ => true) ||
  (decide ((fastkml.info c).special = .track) && decide (a = s% "track_items"))

/-- All results, if there are all. -/
def optAll {α β : Type} (f : α → Option β) : List α → Option (List β)
  | [] => some []
  | x :: xs => match f x, optAll f xs with
    | some y, some ys => some (y :: ys)
    | _, _ => none

/-- The value behind a reference, given that of objects. -/
def Store.value (h : Store F) (f : Nat → Option (Val Cls F)) : Ref F → Option (Val Cls F)
  | .val v => some v
  | .obj r => f r
  | .list a => match h.lists[a]? with
    | none => none
    | some (_, .coords l) => some (.coords l)
    | some (_, .items l) => some (.items l)
    | some (_, .objs rs) => (optAll f rs).map .list

/-- The value of an attribute, with its name. -/
def Store.attrValue (h : Store F) (f : Nat → Option (Val Cls F)) (p : Str × Ref F) : Option (Str × Val Cls F) :=
  (h.value f p.2).map fun v => (p.1, v)

/-- The object at an address as the tree of its visible attributes, following references
through at most `n` objects: Python's recursion limit. -/
def Store.view (h : Store F) : Nat → Nat → Option (Val Cls F)
  | 0, _ => none
  | n + 1, r => match h.objs[r]? with
    | none => none
    | some b => (optAll (h.attrValue (h.view n)) (b.attrs.filter fun p => visible b.cls p.1)).map
        fun as => .obj b.cls b.ns b.nss as

/-- `obj.etree_element(precision, verbosity)` (fastkml/base.py:137-183): it reads the
attributes and changes nothing. -/
def Store.write (h : Store F) (n : Nat) (o : Opts) (r : Nat) : Except Halt Xml :=
  match h.view n r with
  | none => .error .recursion
  | some v => match ser fastkml o v with
    | .error e => .error (.raised e)
    | .ok x => .ok x

/-! ## Constructors -/

/-- A new list. -/
def Store.newList (h : Store F) (t : ElemTy) (l : Cells F) : Store F × Ref F :=
  (⟨h.objs, h.lists ++ [(t, l)]⟩, .list h.lists.length)

/-- A new object. -/
def Store.newObj (h : Store F) (b : Cell F) : Store F := ⟨h.objs ++ [b], h.lists⟩

/-- `kwargs[a]` or the parameter default `None`. -/
def kwRef (a : Str) (kw : List (Str × Ref F)) : Ref F := (dget a kw).getD (.val .none)

/-- `bool(x)`. -/
def Store.truthy (h : Store F) (n : Nat) (x : Ref F) : Except Halt Bool :=
  match h.value (h.view n) x with
  | none => .error .recursion
  | some v => match Verif.truthy fastkml v with
    | .error e => .error (.raised e)
    | .ok b => .ok b

/-- The truthy objects of a list (fastkml/data.py:692, fastkml/gx.py:507). -/
def Store.keepTruthy (h : Store F) (n : Nat) : List Nat → Except Halt (List Nat)
  | [] => .ok []
  | r :: rs => match h.truthy n (.obj r) with
    | .error e => .error e
    | .ok b => match h.keepTruthy n rs with
      | .error e => .error e
      | .ok l => .ok (if b then r :: l else l)

/-- The annotated element type of the list attribute `a`. -/
def listType (c : Cls) (a : Str) : ElemTy :=
  match (fastkml.itemsOf c).find? fun it => decide (it.attr = a) with
  | some it => match it.get with
    | .coordinates => .coords
    | _ => .objs it.classes
  | none => .objs []

/-- Store a constructor argument (see `Norm`).  `list(x)` and a comprehension make new
lists; `coords or []` (fastkml/geometry.py:269) makes one only if `coords` is empty. -/
def Store.storeArg (h : Store F) (n : Nat) (t : ElemTy) (m : Norm) (x : Ref F) : Except Halt (Store F × Ref F) :=
  match m, x with
  | .raw, x => .ok (h, x)
  | .clean, .val v | .orEmpty, .val v | .orNone, .val v => match normalise fastkml m v with
    | .error e => .error (.raised e)
    | .ok v => .ok (h, .val v)
  | .listOr, .val .none | .listNotNone, .val .none | .listTruthy, .val .none => .ok (h.newList t (.objs []))
  | .listOr, .list a | .listNotNone, .list a => match h.lists[a]? with
    | some (_, .objs rs) => .ok (h.newList t (.objs rs))
    | _ => .error (.raised .illTyped)
  | .listTruthy, .list a => match h.lists[a]? with
    | some (_, .objs rs) => match h.keepTruthy n rs with
      | .error e => .error e
      | .ok rs => .ok (h.newList t (.objs rs))
    | _ => .error (.raised .illTyped)
  | .coordsOr, .val .none => .ok (h.newList t (.coords []))
  | .coordsOr, .val (.coords l) => if l.isEmpty then .ok (h.newList t (.coords [])) else .ok (h, .val (.coords l))
  | .coordsOr, .list a => match h.lists[a]? with
    | some (_, .coords l) => if l.isEmpty then .ok (h.newList t (.coords [])) else .ok (h, .list a)
    | _ => .error (.raised .illTyped)
  | _, _ => .error (.raised .illTyped)

/-- Fill the slots of the constructor from the keyword arguments. -/
def Store.fillSlots (h : Store F) (n : Nat) (c : Cls) (kw : List (Str × Ref F)) :
    List (Str × Norm) → Except Halt (Store F × List (Str × Ref F))
  | [] => .ok (h, [])
  | (a, m) :: r => match h.storeArg n (listType c a) m (kwRef a kw) with
    | .error e => .error e
    | .ok (h, x) => match h.fillSlots n c kw r with
      | .error e => .error e
      | .ok (h, xs) => .ok (h, (a, x) :: xs)

/-- The arguments of the constructor of `gx.Track`, as values. -/
def Store.trackArgs (h : Store F) (kw : List (Str × Ref F)) : Option (List (Str × Val Cls F)) :=
  optAll (fun a => (h.value (fun _ => none) (kwRef a kw)).map fun v => (a, v)) (specialArgs .track)

/-- The checks and attributes of the constructors with special treatment (see
`specialInit`). -/
def Store.specialInit (h : Store F) (n : Nat) (s : Special) (kw : List (Str × Ref F)) :
    Except Halt (Store F × List (Str × Ref F)) :=
  match s with
  | .schema => match kwRef (s% "id") kw with
    | .val .none => .error (.raised .schemaError)
    | .val (.str t) => if t.isEmpty then .error (.raised .schemaError) else .ok (h, [])
    | _ => .error (.raised .illTyped)
  | .track => match h.trackArgs kw with
    | none => .error (.raised .illTyped)
    | some as => match trackItems as with
      | .error e => .error (.raised e)
      | .ok l => .ok ((h.newList .items (.items l)).1, [(s% "track_items", (h.newList .items (.items l)).2)])
  | .placemark => match h.truthy n (kwRef (s% "kml_geometry") kw) with
    | .error e => .error e
    | .ok _ => .ok (h, [])
  | .kml => .ok (h, [])
  | .none => .ok (h, [])

/-- `cls(ns=ns, name_spaces=nss, **kw)` (see `construct` and `init`). -/
def Store.make (h : Store F) (n : Nat) (c : Cls) (ns : Option Str) (nss : NsMap) (kw : List (Str × Ref F)) :
    Except Halt (Store F) :=
  let i := fastkml.info c
  let known := specialArgs i.special ++ i.slots.map Prod.fst
  let extras := kw.filter fun p => decide (p.1 ∉ known)
  if extras.isEmpty = false ∧ i.kwargs = false then .error (.raised .typeError)
  else match h.specialInit n i.special kw with
    | .error e => .error e
    | .ok (h, sp) => match h.fillSlots n c kw i.slots with
      | .error e => .error e
      | .ok (h, sl) => .ok (h.newObj ⟨c, ns.getD (nsGet (mergeNs nss) i.nsid), mergeNs nss, extras ++ sp ++ sl⟩)

/-! ## Reading -/

/-- A new object from the references of its attributes. -/
def Store.addObj (h : Store F) (c : Cls) (ns : Str) (nss : NsMap) (as : List (Str × Ref F)) : Store F × Ref F :=
  (h.newObj ⟨c, ns, nss, as⟩, .obj h.objs.length)

/-- The address of an object. -/
def Ref.addr : Ref F → Nat
  | .obj r => r
  | _ => 0

mutual
/-- The objects and lists that reading makes for a result of `from_string` or `parse`:
each is new (`t` is the element type if it is a list). -/
def Store.load (t : ElemTy) : Val Cls F → Store F → Store F × Ref F
  | .obj c ns nss attrs => fun h =>
    let r := Store.loadAttrs c attrs h
    r.1.addObj c ns nss r.2
  | .list l => fun h =>
    let r := Store.loadList l h
    r.1.newList t (.objs r.2)
  | .coords l => fun h => h.newList .coords (.coords l)
  | .items l => fun h => h.newList .items (.items l)
  | .none => fun h => (h, .val .none)
  | .str s => fun h => (h, .val (.str s))
  | .bool b => fun h => (h, .val (.bool b))
  | .int i => fun h => (h, .val (.int i))
  | .float f => fun h => (h, .val (.float f))
  | .enum e s => fun h => (h, .val (.enum e s))
  | .dt d => fun h => (h, .val (.dt d))
  | .floats l => fun h => (h, .val (.floats l))
  | .whens l => fun h => (h, .val (.whens l))
termination_by structural v => v

/-- The attributes. -/
def Store.loadAttrs (c : Cls) : List (Str × Val Cls F) → Store F → Store F × List (Str × Ref F)
  | [] => fun h => (h, [])
  | (a, v) :: r => fun h =>
    let x := Store.load (listType c a) v h
    let y := Store.loadAttrs c r x.1
    (y.1, (a, x.2) :: y.2)
termination_by structural l => l

/-- The members of a list. -/
def Store.loadList : List (Val Cls F) → Store F → Store F × List Nat
  | [] => fun h => (h, [])
  | v :: r => fun h =>
    let x := Store.load (.objs []) v h
    let y := Store.loadList r x.1
    (y.1, x.2.addr :: y.2)
termination_by structural l => l
end

/-! ## Programs -/

/-- The list attribute that `append` (`append_data` for `SchemaData`) changes, and
whether it refuses the object itself: fastkml/containers.py:161-167,
fastkml/kml.py:199-204, fastkml/data.py:276-286, fastkml/data.py:621-630. -/
def growing (c : Cls) : Option (Str × Bool) :=
  if ._Container ∈ (fastkml.info c).mro then some (s% "features", true)
  else if c = .KML then some (s% "features", false)
  else if c = .Schema then some (s% "fields", false)
  else if c = .SchemaData then some (s% "data", false)
  else none

/-- What a program does. -/
inductive Act (F : Type) where
  /-- `l = [...]`, annotated -/
  | list (t : ElemTy) (l : Cells F)
  /-- any change of a list: `l.append(x)`, `l.pop()`, `l.sort()`, `l[:] = ...` -/
  | change (a : Nat) (l : Cells F)
  /-- a constructor -/
  | make (c : Cls) (ns : Option Str) (nss : NsMap) (kw : List (Str × Ref F))
  /-- `from_string`, `parse`: the result `v` -/
  | read (v : Val Cls F)
  /-- `obj.a = x` -/
  | assign (r : Nat) (a : Str) (x : Ref F)
  /-- `obj.ns = ns` -/
  | rename (r : Nat) (ns : Str)
  /-- `obj.append(x)` -/
  | append (r x : Nat)

/-- Is `a` a property without setter: `whens`, `coords` and `angles` of `gx.Track`
(fastkml/gx.py:318-359). -/
def readOnly (c : Cls) (a : Str) : Bool :=
  decide ((fastkml.info c).special = .track) && (decide (a = s% "whens") || decide (a = s% "coords") || decide (a = s% "angles"))

/-- A list with another object at its end. -/
def Cells.push (x : Nat) : Cells F → Option (Cells F)
  | .objs l => some (.objs (l ++ [x]))
  | _ => none

/-- One step; `n` is the recursion limit. -/
def Store.step (h : Store F) (n : Nat) : Act F → Except Halt (Store F)
  | .list t l => .ok (h.newList t l).1
  | .change a l => match h.lists[a]? with
    | none => .error .attributeError
    | some (t, _) => .ok ⟨h.objs, h.lists.set a (t, l)⟩
  | .make c ns nss kw => h.make n c ns nss kw
  | .read v => .ok (Store.load (.objs []) v h).1
  | .assign r a x => match h.objs[r]? with
    | none => .error .attributeError
    | some b =>
      if readOnly b.cls a then .error .attributeError
      else .ok ⟨h.objs.set r ⟨b.cls, b.ns, b.nss, dset a x b.attrs⟩, h.lists⟩
  | .rename r ns => match h.objs[r]? with
    | none => .error .attributeError
    | some b => .ok ⟨h.objs.set r ⟨b.cls, ns, b.nss, b.attrs⟩, h.lists⟩
  | .append r x => match h.objs[r]? with
    | none => .error .attributeError
    | some b => match growing b.cls with
      | none => .error .attributeError
      | some (a, self) =>
        if self = true ∧ r = x then .error (.raised .valueError)
        else match kwRef a b.attrs with
          | .list l => match h.lists[l]? with
            | none => .error .attributeError
            | some (t, cs) => match cs.push x with
              | none => .error (.raised .illTyped)
              | some cs => .ok ⟨h.objs, h.lists.set l (t, cs)⟩
          | _ => .error .attributeError

/-- A step of a program that catches exceptions. -/
def Store.next (h : Store F) (n : Nat) (op : Act F) : Store F :=
  match h.step n op with
  | .ok h => h
  | .error _ => h

/-- A program. -/
def Store.run (h : Store F) (n : Nat) (ops : List (Act F)) : Store F := ops.foldl (fun h op => h.next n op) h

end Verif
