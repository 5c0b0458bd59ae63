import Verif.Spec.Cycle

/-!
# Canonical objects

Objects in the form in which objects are read: trimmed text, no empty children,
lists grouped by class.
-/

namespace Verif.Spec

variable {C F : Type} [DecidableEq C] [PyExt F]

/-- A scalar in the form in which it is read and stored with `n`.  Identifiers
(`n = .orEmpty`) are any text; other text is trimmed and not empty; where floats
are read there is no integer. -/
def canonScalar (g : GetFn) (n : Norm) : Val C F → Prop
  | .none => n ≠ .orEmpty
  | .str s => n = .orEmpty ∨ (s ≠ [] ∧ strip s = s)
  | .int _ => g ≠ .subFloat ∧ g ≠ .attrFloat
  | _ => True

/-- The conditions on one object. -/
structure Canonical (L : Lib C) (N : NsMap) (c : C) (nss : NsMap) (attrs : List (Str × Val C F)) : Prop where
  /-- it has the namespace mapping of the reader -/
  nss : nss = N
  /-- it has the attributes its constructor sets, and no others -/
  layout : attrs.map Prod.fst =
    (if (L.info c).special = .track then [s% "track_items"] else []) ++ (L.info c).slots.map Prod.fst
  /-- attributes that are not registered are not set -/
  unregistered : ∀ a n, (a, n) ∈ (L.info c).slots → (∀ it ∈ L.itemsOf c, it.attr ≠ a) → attr a attrs = unset n
  scalar : ∀ it ∈ L.itemsOf c, scalar it.get = true → ∀ n, (it.attr, n) ∈ (L.info c).slots →
    canonScalar it.get n (attr it.attr attrs)
  /-- children are not empty -/
  object : ∀ it ∈ L.itemsOf c, place it.get = .object →
    attr it.attr attrs = .none ∨ nonEmpty L (attr it.attr attrs) = true
  /-- neither are members of lists, and lists are grouped by class -/
  objects : ∀ it ∈ L.itemsOf c, place it.get = .objects → ∀ l, attr it.attr attrs = .list l →
    (∀ w ∈ l, nonEmpty L w = true) ∧ regroup it.classes l = l

/-- The object and all objects in it are canonical. -/
def AllCanonical (L : Lib C) (N : NsMap) (v : Val C F) : Prop :=
  Everywhere (fun c _ nss attrs => Canonical L N c nss attrs) v

/-- No object that is an attribute, and no member of a list, is empty. -/
def NoEmptyChild (L : Lib C) (attrs : List (Str × Val C F)) : Prop :=
  (∀ a c ns nss as, (a, .obj c ns nss as) ∈ attrs → nonEmpty L (.obj c ns nss as) = true) ∧
  (∀ a l, (a, .list l) ∈ attrs → ∀ w ∈ l, nonEmpty L w = true)

/-- A schema does not have a blank id. -/
def SchemaId (L : Lib C) (c : C) (attrs : List (Str × Val C F)) : Prop :=
  (L.info c).special = .schema → ∀ s, attr (s% "id") attrs = .str s → strip s ≠ []

/-- The attribute `a` with value `v`, when the scalars are changed with `f`; `y` is the
value with the scalars of all objects in it changed. -/
def changeScalar (items : List (Item C)) (f : Item C → Val C F → Val C F) (a : Str) (v y : Val C F) : Val C F :=
  match items.find? (fun it => decide (it.attr = a)) with
  | none => y
  | some it => if scalar it.get then f it v else y

mutual
/-- Change the scalar attributes of an object, and of all objects in it, with `f`. -/
def mapScalars (L : Lib C) (f : Item C → Val C F → Val C F) : Val C F → Val C F
  | .obj c ns nss attrs => .obj c ns nss (mapScalarsAttrs L f (L.itemsOf c) attrs)
  | .list l => .list (mapScalarsList L f l)
  | .none => .none
  | .str s => .str s
  | .bool b => .bool b
  | .int i => .int i
  | .float f => .float f
  | .enum e x => .enum e x
  | .dt k => .dt k
  | .floats l => .floats l
  | .coords l => .coords l
  | .whens l => .whens l
  | .items l => .items l
termination_by structural v => v
/-- The attributes. -/
def mapScalarsAttrs (L : Lib C) (f : Item C → Val C F → Val C F) (items : List (Item C)) :
    List (Str × Val C F) → List (Str × Val C F)
  | [] => []
  | (a, v) :: r => (a, changeScalar items f a v (mapScalars L f v)) :: mapScalarsAttrs L f items r
termination_by structural l => l
/-- The members of a list. -/
def mapScalarsList (L : Lib C) (f : Item C → Val C F → Val C F) : List (Val C F) → List (Val C F)
  | [] => []
  | v :: r => mapScalars L f v :: mapScalarsList L f r
termination_by structural l => l
end

/-- Set an unset attribute to its default.  (The default of a float attribute is
a float, even if it is declared as an integer.) -/
def fillDefault (it : Item C) (v : Val C F) : Val C F :=
  if isNone v then reread it.get false it.dflt.val else v

/-- Unset an attribute that has the default value. -/
def dropDefault (it : Item C) (v : Val C F) : Val C F :=
  if scalarEq v it.dflt.val then .none else v

/-- All unset attributes that have a default set to the default. -/
def fillDefaults (L : Lib C) : Val C F → Val C F := mapScalars L fillDefault

/-- All attributes with the default value unset. -/
def dropDefaults (L : Lib C) : Val C F → Val C F := mapScalars L dropDefault

/-! ## Objects in their default namespaces -/

/-- The object is in the namespace its constructor chooses when none is given. -/
def Home (L : Lib C) (N : NsMap) (c : C) (ns : Str) (nss : NsMap) : Prop :=
  nss = N ∧ ns = nsGet N (L.info c).nsid

/-- The conditions on the content of an object: its times can be read back, the
rows of a track are complete, a schema has an id.  The rows without a time, if there are
any, come last, and not all are; such a track is not in the namespace of KML. -/
structure Complete (L : Lib C) (c : C) (ns : Str) (nss : NsMap) (attrs : List (Str × Val C F)) : Prop where
  times : ∀ it ∈ L.itemsOf c, it.get = .subDt → ∀ k, attr it.attr attrs = .dt k → Rereadable k
  rows : (L.info c).special = .track → ∀ r ∈ rows attrs,
    (∀ k, r.when_ = some k → Rereadable k) ∧ r.angle.isSome ∧ ptEmpty r.coord = false
  inOrder : (L.info c).special = .track → TimesFirst (Spec.rows attrs)
  untimed : (L.info c).special = .track → (∃ r ∈ Spec.rows attrs, r.when_ = none) → ns ≠ nsGet nss (s% "kml")
  schema : (L.info c).special = .schema → ∃ s, attr (s% "id") attrs = .str s ∧ s ≠ []

end Verif.Spec
