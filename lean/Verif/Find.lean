import Verif.DictOrder

/-!
# Searching object trees

`fastkml/utils.py`, `Document.get_style_by_url` and `StyleMap.normal` and
`highlight`.
-/

namespace Verif

variable {F : Type}

/-- The Python objects a search can meet: values, and the parts of values that
have no `Val` of their own. -/
inductive Node (F : Type) where
  | val (v : Val Cls F)
  /-- a coordinate tuple, or the tuple `()` -/
  | tuple (p : Pt F)
  /-- a `gx.TrackItem` (fastkml/gx.py:155-161) -/
  | row (r : TrackItem F)
  /-- a `pygeoif.Point` -/
  | point (p : Pt F)
  /-- a `gx.Angle` (fastkml/gx.py:127-152) -/
  | angle (a : F × F × F)
  /-- a `datetime.date` or `datetime.datetime` -/
  | moment (m : Moment)
  /-- a `DateTimeResolution` -/
  | resolution (r : Resolution)

/-- `not attr.startswith("_")` (fastkml/utils.py:48). -/
def isPublic : Str → Bool
  | '_' :: _ => false
  | _ => true

/-- The items of `obj.__dict__` in order of insertion, given what belongs to
`name_spaces` and `ns`: the attributes set before `_XMLObject.__init__` runs, then
`name_spaces` and `ns` (fastkml/base.py:80-85), then the others. -/
def dictOrder {α : Type} (c : Cls) (nss ns : α) (attrs : List (Str × α)) : List (Str × α) :=
  attrs.filter (fun p => decide (p.1 ∈ beforeBase c)) ++
    (s% "name_spaces", nss) :: (s% "ns", ns) ::
    attrs.filter (fun p => decide (p.1 ∉ beforeBase c))

/-- What an attribute value contributes: nothing for a string, the elements of an
iterable, otherwise the value itself (fastkml/utils.py:53-58). -/
def spread : Val Cls F → List (Node F)
  | .str _ => []
  | .list l => l.map .val
  | .floats l => l.map fun f => .val (.float f)
  | .coords l => l.map .tuple
  | .whens l => l.map fun w => match w with
    | none => .tuple []
    | some k => .val (.dt k)
  | .items l => l.map .row
  | v => [.val v]

/-- `get_all_attrs` (fastkml/utils.py:32-58).  A `name_spaces` dictionary yields its
keys, `ns` is a string.  `KmlDateTime` has the attributes `dt` and `resolution`
(fastkml/times.py:154-155), `TrackItem` and `Angle` their fields; enum members,
dates, numbers, tuples and pygeoif points have no public instance attributes. -/
def getAllAttrs : Node F → List (Node F)
  | .val (.obj c _ nss attrs) =>
    ((dictOrder c (nss.map fun p => Node.val (.str p.1)) []
      (attrs.map fun p => (p.1, spread p.2))).filter fun p => isPublic p.1).flatMap (·.2)
  | .val (.dt k) => [.moment k.dt, .resolution k.res]
  | .row r => (match r.when_ with
      | none => []
      | some k => [.val (.dt k)]) ++ .point r.coord ::
      (match r.angle with
      | none => [.val .none]
      | some a => [.angle a])
  | .angle a => [.val (.float a.1), .val (.float a.2.1), .val (.float a.2.2)]
  | _ => []

/-- The parts of Python object access that are left open: `eq` is `==`, `extra`
looks up attributes that are not stored in the instance (methods and properties).
-/
structure Look (F : Type) where
  eq : Val Cls F → Val Cls F → Bool
  extra : Node F → Str → Option (Val Cls F)

/-- `getattr(obj, key)`; `none` is `AttributeError`.  The value of `name_spaces` is
not a `Val`, queries for it are part of `extra`. -/
def Look.getattr (P : Look F) (n : Node F) (k : Str) : Option (Val Cls F) :=
  match n with
  | .val (.obj _ ns _ attrs) =>
    if k = s% "ns" then some (.str ns) else match dget k attrs with
      | some v => some v
      | none => P.extra n k
  | _ => P.extra n k

/-- `has_attribute_values` (fastkml/utils.py:13-29).  Exceptions other than
`AttributeError`, which `==` might raise, are not modelled. -/
def hasAttributeValues (P : Look F) (n : Node F) (kw : List (Str × Val Cls F)) : Bool :=
  kw.all fun p => match P.getattr n p.1 with
    | none => false
    | some w => P.eq w p.2

/-- `isinstance(obj, of_type)` for a tuple of fastkml classes; a single class is a
tuple of length one. -/
def isInstance (n : Node F) (cs : List Cls) : Bool :=
  match n with
  | .val (.obj c _ _ _) => cs.any fun d => decide (d ∈ (fastkml.info c).mro)
  | _ => false

/-- The arguments of `find_all`. -/
structure Query (F : Type) where
  ofType : Option (List Cls)
  attrs : List (Str × Val Cls F)

/-- The condition of `find_all` (fastkml/utils.py:83-86). -/
def Query.test (P : Look F) (q : Query F) (n : Node F) : Bool :=
  (match q.ofType with
    | none => true
    | some cs => isInstance n cs) && hasAttributeValues P n q.attrs

/-- `find_all` (fastkml/utils.py:61-90) to a recursion depth. -/
def findUpTo (t : Node F → Bool) : Nat → Node F → List (Node F)
  | 0, _ => []
  | k + 1, n => (if t n then [n] else []) ++ (getAllAttrs n).flatMap (findUpTo t k)

mutual
/-- The nesting depth of a value. -/
def Val.depth : Val Cls F → Nat
  | .obj _ _ _ attrs => Val.depthAttrs attrs + 1
  | .list l => Val.depthList l + 1
  | .items _ => 3
  | .whens _ => 2
  | .dt _ => 2
  | _ => 1
termination_by structural v => v
/-- The greatest depth of the elements. -/
def Val.depthList : List (Val Cls F) → Nat
  | [] => 0
  | v :: r => max (Val.depth v) (Val.depthList r)
termination_by structural l => l
/-- The greatest depth of the attributes. -/
def Val.depthAttrs : List (Str × Val Cls F) → Nat
  | [] => 1
  | (_, v) :: r => max (Val.depth v) (Val.depthAttrs r)
termination_by structural l => l
end

/-- A bound for the recursion of `find_all`. -/
def Node.depth : Node F → Nat
  | .val v => v.depth
  | .row _ => 3
  | .angle _ => 2
  | _ => 1

/-- `find_all` (fastkml/utils.py:61-90).  Object trees are finite, so that the
recursion ends; `findAll_eq` is the equation of the Python function. -/
def findAll (P : Look F) (q : Query F) (n : Node F) : List (Node F) :=
  findUpTo (q.test P) n.depth n

/-- `find` (fastkml/utils.py:93-113); `none` is `None`. -/
def find (P : Look F) (q : Query F) (n : Node F) : Option (Node F) :=
  (findAll P q n).head?

/-- `urlparse(url).fragment` (Python standard library): tabs and line breaks are
removed from the url, the fragment is what follows the first `#`.  The `ValueError`
for a malformed network location is in `Url.lean`. -/
def urlFragment (url : Str) : Str :=
  ((url.filter fun c => decide (c ∉ ['\t', '\r', '\n'])).dropWhile fun c => decide (c ≠ '#')).drop 1

/-- `Document.get_style_by_url` (fastkml/containers.py:303-326). -/
def getStyleByUrl (P : Look F) (doc : Val Cls F) (url : Str) : Option (Node F) :=
  (findAll P ⟨some [.Style, .StyleMap], [(s% "id", .str (urlFragment url))]⟩ (.val doc)).head?

/-- The stored attribute of an object. -/
def Val.stored (v : Val Cls F) (a : Str) : Option (Val Cls F) :=
  match v with
  | .obj _ _ _ attrs => dget a attrs
  | _ => Option.none

/-- `next((pair.style for pair in self.pairs if pair.key == key), None)`; `none` is
`AttributeError`. -/
def firstStyle (key : Str) : List (Val Cls F) → Option (Val Cls F)
  | [] => some .none
  | p :: r => match p.stored (s% "key") with
    | Option.none => Option.none
    | some (.enum .pairKey k) => if k = key then p.stored (s% "style") else firstStyle key r
    | some _ => firstStyle key r

/-- `StyleMap.normal` (fastkml/styles.py:1372-1385). -/
def styleMapNormal (m : Val Cls F) : Option (Val Cls F) :=
  match m.stored (s% "pairs") with
  | some (.list l) => firstStyle (s% "normal") l
  | _ => none

/-- `StyleMap.highlight` (fastkml/styles.py:1387-1401). -/
def styleMapHighlight (m : Val Cls F) : Option (Val Cls F) :=
  match m.stored (s% "pairs") with
  | some (.list l) => firstStyle (s% "highlight") l
  | _ => none

end Verif
