import Verif.Spec.Writing
import Verif.Spec.Names

/-!
# What a write/read cycle does to an object

`cycle L o N v` is the object that reading back the output for `v` gives, `N` being
the namespace mapping of the reader.  `Readable` are the conditions under which
the output can be read back at all.
-/

namespace Verif.Spec

variable {C F : Type} [DecidableEq C] [PyExt F]

/-! ## Conditions -/

/-- The value `x` occurs in `v`: it is `v`, or occurs in an attribute of the object
`v`, or in a member of the list `v`. -/
inductive Inside (x : Val C F) : Val C F → Prop where
  | self : Inside x x
  | attr {c ns nss attrs a w} : (a, w) ∈ attrs → Inside x w → Inside x (.obj c ns nss attrs)
  | member {l w} : w ∈ l → Inside x w → Inside x (.list l)

/-- All objects in `v` satisfy `Q`. -/
def Everywhere (Q : C → Str → NsMap → List (Str × Val C F) → Prop) (v : Val C F) : Prop :=
  ∀ c ns nss attrs, Inside (.obj c ns nss attrs) v → Q c ns nss attrs

/-- The namespaces in which an item is looked for. -/
def lookups (N : NsMap) (it : Item C) : List Str := it.nsIds.map (nsGet N)

/-- A time that is read back from its text (see C20): made from a valid date or
datetime, with a four digit year or complete date, and with a UTC offset. -/
def Rereadable (k : KmlDateTime) : Prop :=
  (∃ m r, Moment.Valid m ∧ k = KmlDateTime.mk' m r) ∧
  (k.res = .year ∨ k.res = .yearMonth → 1000 ≤ k.dt.day.y) ∧
  (∀ d t, k.dt = .dt d t → t.off.isSome)

/-- The conditions on one object. -/
structure Readable (L : Lib C) (o : Opts) (N : NsMap) (c : C) (ns : Str) (nss : NsMap)
    (attrs : List (Str × Val C F)) : Prop where
  /-- XML attributes are looked for without namespace -/
  attr : ∀ it ∈ L.itemsOf c, place it.get = .attr → [] ∈ lookups N it
  /-- what is written for a scalar is in one of the namespaces it is looked for -/
  child : ∀ it ∈ L.itemsOf c, place it.get = .child →
    childNs ns nss (shown o.verbosity it.dflt.val (Spec.attr it.attr attrs)) ∈ lookups N it
  /-- the same for the rows of a track -/
  whens : ∀ it ∈ L.itemsOf c, it.get = .subDtList → nsGet nss (s% "kml") ∈ lookups N it
  coords : ∀ it ∈ L.itemsOf c, it.get = .coordsList → ns ∈ lookups N it
  /-- the same for objects -/
  object : ∀ it ∈ L.itemsOf c, place it.get = .object → ∀ d ns' nss' as,
    Spec.attr it.attr attrs = .obj d ns' nss' as → ns' ∈ lookups N it
  /-- list members are in the first namespace -/
  objects : ∀ it ∈ L.itemsOf c, place it.get = .objects → ∀ l d ns' nss' as,
    Spec.attr it.attr attrs = .list l → .obj d ns' nss' as ∈ l → (lookups N it).head? = some ns'
  /-- times can be read back -/
  times : ∀ it ∈ L.itemsOf c, it.get = .subDt → ∀ k, Spec.attr it.attr attrs = .dt k → Rereadable k
  /-- the rows of a track are complete -/
  rows : (L.info c).special = .track → ∀ r ∈ rows attrs,
    (∀ k, r.when_ = some k → Rereadable k) ∧ r.angle.isSome ∧ ptEmpty r.coord = false
  /-- the rows without a time are the last -/
  inOrder : (L.info c).special = .track → TimesFirst (Spec.rows attrs)
  /-- if there are any, the times are in the first namespace, and not that of the object -/
  untimed : (L.info c).special = .track → (∃ r ∈ Spec.rows attrs, r.when_ = none) →
    ∀ it ∈ L.itemsOf c, it.get = .subDtList →
    ns ≠ nsGet nss (s% "kml") ∧ ns ∈ lookups N it ∧ (lookups N it).head? = some (nsGet nss (s% "kml"))
  /-- a schema has an id -/
  schema : (L.info c).special = .schema → ∃ s, Spec.attr (s% "id") attrs = .str s ∧ s ≠ []
  /-- a `KML` object has a namespace -/
  kml : (L.info c).special = .kml → ns ≠ []

/-! ## The result -/

/-- A number written with a precision and read back. -/
def roundTo (p : Option Nat) (f : F) : F :=
  match p with
  | none => f
  | some n => (PyExt.parse (PyExt.fixed n f)).getD f

/-- A scalar that was written and read: identifiers (`ident`) are kept verbatim,
other text is trimmed, blank text is `None`; integers become floats where floats
are expected. -/
def reread (g : GetFn) (ident : Bool) : Val C F → Val C F
  | .none => if ident then .str [] else .none
  | .str s => if ident then .str s else if strip s = [] then .none else .str (strip s)
  | .int i => if g = .subFloat ∨ g = .attrFloat then .float (PyExt.ofInt i) else .int i
  | v => v

/-- Coordinates that were written and read. -/
def rereadCoords (p : Option Nat) : Val C F → Val C F
  | .coords l => .coords (l.map fun c => c.map (roundTo p))
  | _ => .coords []

/-- A row of a track that was written and read. -/
def rereadRow (p : Option Nat) (r : TrackItem F) : TrackItem F :=
  ⟨r.when_, r.coord.map (roundTo p),
    r.angle.map fun a => (roundTo p a.1, roundTo p a.2.1, roundTo p a.2.2)⟩

/-- Group the members of a list by class, in the order of the classes. -/
def regroup (cs : List (PyType C)) (l : List (Val C F)) : List (Val C F) :=
  cs.flatMap fun t => l.filter (isInst [t])

/-- What a constructor stores for an argument that is not given. -/
def unset : Norm → Val C F
  | .orEmpty => .str []
  | .listOr | .listNotNone | .listTruthy => .list []
  | .coordsOr => .coords []
  | _ => .none

/-- The attribute `a` (stored with `n`) of the result, given the results for the
objects in the attribute (`y`) and for the non-empty members of the list in the
attribute (`ys`). -/
def cycleAttr (L : Lib C) (o : Opts) (c : C) (attrs : List (Str × Val C F)) (y : Val C F)
    (ys : List (Val C F)) (a : Str) (n : Norm) : Val C F :=
  match (L.itemsOf c).find? (fun it => decide (it.attr = a)) with
  | none => unset n
  | some it => match place it.get with
    | .object => if nonEmpty L (attr a attrs) then y else .none
    | .objects =>
      .list (if n = .listTruthy then (regroup it.classes ys).filter (nonEmpty L) else regroup it.classes ys)
    | _ =>
      if it.get = .coordinates then rereadCoords o.precision (attr a attrs)
      else reread it.get (decide (n = .orEmpty)) (shown o.verbosity it.dflt.val (attr a attrs))

/-- All attributes of the result: the rows of a track, and what the constructor
stores. -/
def cycleStep (L : Lib C) (o : Opts) (c : C) (attrs : List (Str × Val C F))
    (ys : List (Str × Val C F × List (Val C F))) : List (Str × Val C F) :=
  (if (L.info c).special = .track then
    [(s% "track_items", .items ((rows attrs).map (rereadRow o.precision)))] else []) ++
  (L.info c).slots.map fun s =>
    (s.1, cycleAttr L o c attrs ((dget s.1 ys).getD (.none, [])).1 ((dget s.1 ys).getD (.none, [])).2 s.1 s.2)

mutual
/-- The object that is read back. -/
def cycle (L : Lib C) (o : Opts) (N : NsMap) : Val C F → Val C F
  | .obj c ns _ attrs => .obj c ns N (cycleStep L o c attrs (cycleAttrs L o N attrs))
  | .none => .none
  | .str s => .str s
  | .bool b => .bool b
  | .int i => .int i
  | .float f => .float f
  | .enum e x => .enum e x
  | .dt k => .dt k
  | .floats l => .floats l
  | .coords l => .coords l
  | .whens l => .whens l
  | .items l => .items l
  | .list l => .list l
termination_by structural v => v
/-- The non-empty members of a list. -/
def cycleMembers (L : Lib C) (o : Opts) (N : NsMap) : Val C F → List (Val C F)
  | .list l => cycleList L o N l
  | _ => []
termination_by structural v => v
/-- The attributes. -/
def cycleAttrs (L : Lib C) (o : Opts) (N : NsMap) :
    List (Str × Val C F) → List (Str × Val C F × List (Val C F))
  | [] => []
  | (a, v) :: r => (a, cycle L o N v, cycleMembers L o N v) :: cycleAttrs L o N r
termination_by structural l => l
/-- The non-empty members. -/
def cycleList (L : Lib C) (o : Opts) (N : NsMap) : List (Val C F) → List (Val C F)
  | [] => []
  | v :: r => if nonEmpty L v then cycle L o N v :: cycleList L o N r else cycleList L o N r
termination_by structural l => l
end

end Verif.Spec
