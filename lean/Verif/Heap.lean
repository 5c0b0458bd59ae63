import Verif.Py

/-!
# Objects with identity: `append`

The values of the other modules have no identity.  Here objects and Python lists have
addresses, so that lists can be shared: for `_Container`, `KML`, `Schema` and
`SchemaData`, whose constructors take an iterable and whose `append` (`append_data`)
changes the list made from it.

Only the list attribute is modelled (`features`, `fields`, `data`), and only lists are
given as iterables.  Assigning to the attribute or changing the list behind it without
`append` is not modelled.
-/

namespace Verif

/-- Classes with a list attribute and `append`, and other classes. -/
inductive Kind where
  /-- `Folder`, `Document`: `features` -/
  | container
  /-- `KML`: `features` -/
  | kml
  /-- `Schema`: `fields` -/
  | schema
  /-- `SchemaData`: `data` -/
  | schemaData
  /-- no list attribute -/
  | other
deriving DecidableEq, Repr

/-- An object: its kind and the address of its list. -/
structure HObj where
  kind : Kind
  own : Nat
deriving DecidableEq, Repr

/-- The Python lists and the objects, in order of creation; `mine` are the addresses of
the lists that the user made. -/
structure Heap where
  lists : List (List Nat)
  objs : List HObj
  mine : List Nat
deriving DecidableEq, Repr

/-- Before anything is made. -/
def Heap.empty : Heap := ⟨[], [], []⟩

/-- The argument of a constructor: `None`, the user's `i`-th list, or the list attribute
of an object. -/
inductive Src where
  | none
  | mine (i : Nat)
  | of (o : Nat)
deriving DecidableEq, Repr

/-- What a program does. -/
inductive Op where
  /-- `l = [x, ...]` -/
  | newList (xs : List Nat)
  /-- `l.append(x)` for the user's `i`-th list -/
  | extend (i x : Nat)
  /-- a constructor -/
  | create (k : Kind) (src : Src)
  /-- `o.append(x)`, or `o.append_data(x)` for a `SchemaData` -/
  | append (o x : Nat)
deriving DecidableEq, Repr

/-- How an operation ends. -/
inductive Outcome where
  | done
  | valueError
  | attributeError
deriving DecidableEq, Repr

/-- The list at an address. -/
def Heap.listAt (h : Heap) (a : Nat) : List Nat := (h.lists[a]?).getD []

/-- The value of an argument: an absent list is empty. -/
def Heap.value (h : Heap) : Src → List Nat
  | .none => []
  | .mine i => match h.mine[i]? with
    | some a => h.listAt a
    | .none => []
  | .of o => match h.objs[o]? with
    | some b => h.listAt b.own
    | .none => []

/-- `list(features) if features else []` (fastkml/containers.py:131; `fields`
fastkml/data.py:252; `data` fastkml/data.py:593) and `list(features) if features is not
None else []` (fastkml/kml.py:137): a new list. -/
def Heap.newOwn (h : Heap) (src : Src) : List Nat := h.value src

/-- A program step. -/
def Heap.step (h : Heap) : Op → Heap × Outcome
  | .newList xs => (⟨h.lists ++ [xs], h.objs, h.mine ++ [h.lists.length]⟩, .done)
  | .extend i x => match h.mine[i]? with
    | some a => (⟨h.lists.set a (h.listAt a ++ [x]), h.objs, h.mine⟩, .done)
    | none => (h, .attributeError)
  | .create k src => (⟨h.lists ++ [h.newOwn src], h.objs ++ [⟨k, h.lists.length⟩], h.mine⟩, .done)
  | .append o x => match h.objs[o]? with
    | none => (h, .attributeError)
    | some b => match b.kind with
      | .other => (h, .attributeError)
      -- fastkml/containers.py:161-167
      | .container =>
        if x = o then (h, .valueError)
        else (⟨h.lists.set b.own (h.listAt b.own ++ [x]), h.objs, h.mine⟩, .done)
      -- fastkml/kml.py:199-204, fastkml/data.py:276-286, fastkml/data.py:621-630
      | _ => (⟨h.lists.set b.own (h.listAt b.own ++ [x]), h.objs, h.mine⟩, .done)

/-- A program; exceptions are caught. -/
def Heap.run (h : Heap) (ops : List Op) : Heap := ops.foldl (fun h op => (h.step op).1) h

/-- The list attribute of an object. -/
def Heap.features (h : Heap) (o : Nat) : Option (List Nat) :=
  (h.objs[o]?).map fun b => h.listAt b.own

/-- The user's `i`-th list. -/
def Heap.userList (h : Heap) (i : Nat) : Option (List Nat) := (h.mine[i]?).map h.listAt

/-- The kind of an object. -/
def Heap.kindOf (h : Heap) (o : Nat) : Option Kind := (h.objs[o]?).map (·.kind)

end Verif
