import Verif.Spec.Reading
import Verif.Spec.Typing

/-!
# What is written

The element of an object, described attribute by attribute: which text, which XML
attributes and which block of children each registered attribute gives.
-/

namespace Verif.Spec

variable {C F : Type} [DecidableEq C] [PyExt F]

/-- The text of a scalar value; `None` and the empty text are not written. -/
def scalarText : Val C F → Option Str
  | .str s => if s = [] then none else some s
  | .bool b => some (if b then s% "1" else s% "0")
  | .int i => some (intRepr i)
  | .float f => some (PyExt.repr f)
  | .enum _ x => some x
  | .dt k => some k.toStr
  | _ => none

/-- The value is an unset attribute. -/
def isNone : Val C F → Bool
  | .none => true
  | _ => false

/-- A number, as an integer or a float. -/
def number : Val C F → Option (Int ⊕ F)
  | .bool b => some (.inl (if b then 1 else 0))
  | .int i => some (.inl i)
  | .float f => some (.inr f)
  | _ => none

/-- Python's `==` on unset values, texts, numbers and enumeration members. -/
def scalarEq (v w : Val C F) : Bool :=
  match number v, number w with
  | some (.inl i), some (.inl j) => i == j
  | some (.inl i), some (.inr g) => PyExt.beq (PyExt.ofInt i) g
  | some (.inr f), some (.inl j) => PyExt.beq f (PyExt.ofInt j)
  | some (.inr f), some (.inr g) => PyExt.beq f g
  | _, _ => match v, w with
    | .none, .none => true
    | .str s, .str t => decide (s = t)
    | .enum e x, .enum e' y => decide (e = e') && decide (x = y)
    | _, _ => false

/-- The value that is written for a value `v` of an attribute with default `d`:
with `normal` verbosity the value itself, with `terse` nothing if it is the
default, with `verbose` the default if it is unset. -/
def shown (vb : Verbosity) (d v : Val C F) : Val C F :=
  match vb with
  | .normal => v
  | .terse => if scalarEq v d then .none else v
  | .verbose => if isNone v then d else v

/-- The rows of a track. -/
def rows (attrs : List (Str × Val C F)) : List (TrackItem F) :=
  match attr (s% "track_items") attrs with
  | .items l => l
  | _ => []

/-- The rows without a time come after those with a time, and the first row has one. -/
def TimesFirst (l : List (TrackItem F)) : Prop :=
  l = [] ∨ ∃ l₁ l₂, l = l₁ ++ l₂ ∧ l₁ ≠ [] ∧ (∀ r ∈ l₁, r.when_ ≠ none) ∧ ∀ r ∈ l₂, r.when_ = none

/-- The value of a registered attribute.  The attributes `whens`, `coords` and
`angles` of a track are computed from its rows. -/
def value (L : Lib C) (c : C) (attrs : List (Str × Val C F)) (a : Str) : Val C F :=
  if (L.info c).special = .track ∧ a = s% "whens" then .whens ((rows attrs).map (·.when_))
  else if (L.info c).special = .track ∧ a = s% "coords" then
    .coords (((rows attrs).map (·.coord)).filter fun p => !ptEmpty p)
  else if (L.info c).special = .track ∧ a = s% "angles" then
    .coords (((rows attrs).filterMap (·.angle)).map fun a => [a.1, a.2.1, a.2.2])
  else attr a attrs

/-- The namespace of the child for a scalar: that of the object, but altitude
modes and times have their own. -/
def childNs (ns : Str) (nss : NsMap) : Val C F → Str
  | .enum .altitudeMode x =>
    if x = s% "clampToSeaFloor" ∨ x = s% "relativeToSeaFloor" then nsGet nss (s% "gx")
    else nsGet nss (s% "kml")
  | .dt _ => nsGet nss (s% "kml")
  | _ => ns

/-- The child for a scalar, if it is written. -/
def scalarKid (ns : Str) (nss : NsMap) (node : Str) (v : Val C F) : List Xml :=
  match scalarText v with
  | none => []
  | some s => [.leaf (childNs ns nss v ++ node) s]

/-- The children for a list of times or coordinates. -/
def listKids (p : Option Nat) (ns : Str) (nss : NsMap) (node : Str) : Val C F → List Xml
  | .whens l => l.map fun w => match w with
    | some k => .leaf (nsGet nss (s% "kml") ++ node) k.toStr
    | none => .leaf (ns ++ node) (s% "()")
  | .coords l => l.map fun c => .leaf (ns ++ node) (join [' '] (c.map (fmt p)))
  | _ => []

/-- The XML attribute an item gives. -/
def attrText (o : Opts) (it : Item C) (v : Val C F) : Option Str :=
  match place it.get with
  | .attr => scalarText (shown o.verbosity it.dflt.val v)
  | _ => none

/-- The text of the element an item gives. -/
def elemText (o : Opts) (it : Item C) (v : Val C F) : Option Str :=
  match it.get with
  | .nodeText => scalarText (shown o.verbosity it.dflt.val v)
  | .coordinates => match v with
    | .coords (c :: l) => some (coordsText o.precision (c :: l))
    | _ => none
  | _ => none

/-- The block of children an item gives. -/
def Block (L : Lib C) (o : Opts) (ns : Str) (nss : NsMap) (it : Item C) (v : Val C F) (ks : List Xml) : Prop :=
  match place it.get with
  | .text | .attr => ks = []
  | .child => ks = scalarKid ns nss it.node (shown o.verbosity it.dflt.val v)
  | .children => ks = listKids o.precision ns nss it.node v
  | .object => (truthy L v = .ok false ∧ ks = []) ∨
      (∃ x, truthy L v = .ok true ∧ ser L o v = .ok x ∧ ks = [x])
  | .objects => ∃ l, v = .list l ∧ (∀ w ∈ l, ∃ b, truthy L w = .ok b) ∧
      All2 (fun w x => ser L o w = .ok x) (l.filter (nonEmpty L)) ks

/-- `e` is the element of an object. -/
structure Written (L : Lib C) (o : Opts) (c : C) (ns : Str) (nss : NsMap) (attrs : List (Str × Val C F))
    (e : Xml) : Prop where
  tag : e.tag = ns ++ (L.info c).tag
  /-- one block of children per item, in the order of registration -/
  kids : ∃ blocks, All2 (fun it ks => Block L o ns nss it (value L c attrs it.attr) ks) (L.itemsOf c) blocks ∧
    e.kids = blocks.flatten
  attr : ∀ it ∈ L.itemsOf c, place it.get = .attr →
    e.get it.node = attrText o it (value L c attrs it.attr)
  /-- no other XML attributes, except the `xmlns` of a `KML` without namespace -/
  noAttr : ∀ p ∈ e.attrs, (∃ it ∈ L.itemsOf c, place it.get = .attr ∧ p.1 = it.node) ∨
    ((L.info c).special = .kml ∧ ns = [] ∧ p.1 = s% "xmlns")
  text : ∀ it ∈ L.itemsOf c, place it.get = .text → e.text = elemText o it (value L c attrs it.attr)
  noText : (∀ it ∈ L.itemsOf c, place it.get ≠ .text) → e.text = none

/-! ## Verbosity -/

/-- What terse output writes in place of a scalar: nothing for the default. -/
def terseInstead (it : Item C) (v : Val C F) : Option (Val C F) :=
  if scalarEq v it.dflt.val then some .none else none

/-- What verbose output writes in place of a scalar: the default for `None`. -/
def verboseInstead (it : Item C) (v : Val C F) : Option (Val C F) :=
  if isNone v then some it.dflt.val else none

/-- The blocks of children `b.1` and `b.2` of an item, written with verbosity `vb`
and with normal verbosity, differ only by what is written in place of scalars, in
the object and in the objects below it. -/
def BlockVs (L : Lib C) (p : Option Nat) (vb : Verbosity) (instead : Item C → Val C F → Option (Val C F)) (ns : Str)
    (nss : NsMap) (it : Item C) (v : Val C F) (b : List Xml × List Xml) : Prop :=
  match place it.get with
  | .text | .attr => b = ([], [])
  | .child => b.1 = match instead it v with
    | none => b.2
    | some w => scalarKid ns nss it.node w
  | .children => b.1 = b.2
  | .object => (truthy L v = .ok false ∧ b = ([], [])) ∨
      ∃ x y, truthy L v = .ok true ∧ ser L ⟨p, vb⟩ v = .ok x ∧ ser L ⟨p, .normal⟩ v = .ok y ∧ b = ([x], [y])
  | .objects => ∃ l, v = .list l ∧ All2 (fun w x => ser L ⟨p, vb⟩ w = .ok x) (l.filter (nonEmpty L)) b.1 ∧
      All2 (fun w x => ser L ⟨p, .normal⟩ w = .ok x) (l.filter (nonEmpty L)) b.2

/-- The element `e` written with verbosity `vb`, compared with the element `e'`
written with normal verbosity. -/
structure Versus (L : Lib C) (p : Option Nat) (vb : Verbosity) (instead : Item C → Val C F → Option (Val C F)) (c : C)
    (ns : Str) (nss : NsMap) (attrs : List (Str × Val C F)) (e e' : Xml) : Prop where
  tag : e.tag = e'.tag
  kids : ∃ blocks : List (List Xml × List Xml),
    All2 (fun it b => BlockVs L p vb instead ns nss it (value L c attrs it.attr) b) (L.itemsOf c) blocks ∧
    e.kids = (blocks.map Prod.fst).flatten ∧ e'.kids = (blocks.map Prod.snd).flatten
  attr : ∀ it ∈ L.itemsOf c, place it.get = .attr →
    e.get it.node = match instead it (value L c attrs it.attr) with
      | none => e'.get it.node
      | some w => scalarText w
  text : ∀ it ∈ L.itemsOf c, it.get = .nodeText →
    e.text = match instead it (value L c attrs it.attr) with
      | none => e'.text
      | some w => scalarText w
  otherText : (∀ it ∈ L.itemsOf c, it.get ≠ .nodeText) → e.text = e'.text

/-! ## Precision -/

/-- `s` ends in `t`. -/
def endsIn (t s : Str) : Bool := decide (s.drop (s.length - t.length) = t)

/-- A `coordinates`, `coord` or `angles` element. -/
def isCoordTag (tag : Str) : Bool :=
  endsIn (s% "coordinates") tag || endsIn (s% "coord") tag || endsIn (s% "angles") tag

/-- The separators of a text with coordinates: they determine the number of tuples
and of their components. -/
def separators (t : Str) : Str := t.filter fun c => decide (c = ' ' ∨ c = ',')

/-- The text of an element, with the numbers of coordinates left out. -/
def maskText (tag : Str) (t : Str) : Str := if isCoordTag tag then separators t else t

mutual
/-- A tree, with the numbers of coordinates left out. -/
def mask : Xml → Xml
  | .mk tag attrs text kids => .mk tag attrs (text.map (maskText tag)) (maskKids kids)
termination_by structural e => e
/-- The children. -/
def maskKids : List Xml → List Xml
  | [] => []
  | k :: ks => mask k :: maskKids ks
termination_by structural l => l
end

end Verif.Spec
