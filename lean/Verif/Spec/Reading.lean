import Verif.Base
import Verif.Spec.Lists

/-!
# What reading looks at

Independent of the order of evaluation in the code: where the text of a scalar
attribute is, what it denotes, and when two elements have the same relevant
content.
-/

namespace Verif.Spec

/-- Where a registration item finds its data. -/
inductive Place where
  /-- the text of the element -/
  | text
  /-- the text of the first child of that name -/
  | child
  /-- an XML attribute -/
  | attr
  /-- the texts of all children of that name -/
  | children
  /-- the first child with the name of one of the classes -/
  | object
  /-- all children with the names of the classes -/
  | objects
deriving DecidableEq

/-- The place of an item. -/
def place : GetFn → Place
  | .nodeText | .coordinates => .text
  | .subText | .subBool | .subInt | .subFloat | .subEnum | .subDt => .child
  | .attrText | .attrInt | .attrFloat | .attrEnum => .attr
  | .subDtList | .coordsList => .children
  | .xmlSub => .object
  | .xmlSubList => .objects

/-- A scalar attribute: a single text, number, boolean, enumeration or time. -/
def scalar (g : GetFn) : Bool :=
  match place g with
  | .text => decide (g = .nodeText)
  | .child | .attr => true
  | _ => false

/-- The text without surrounding whitespace, unless blank. -/
def trimmed : Option Str → Option Str
  | none => none
  | some s => if strip s = [] then none else some (strip s)

/-- The value of an XML attribute, unless empty. -/
def given : Option Str → Option Str
  | none => none
  | some s => if s = [] then none else some s

/-- The text of the first child with the tag. -/
def childText (e : Xml) (tag : Str) : Option Str :=
  match e.kids.find? (fun k => decide (k.tag = tag)) with
  | none => none
  | some k => k.text

/-- The text of a scalar attribute in the namespace `ns`, if there is one. -/
def itemText {C : Type} (it : Item C) (ns : Str) (e : Xml) : Option Str :=
  match place it.get with
  | .text => trimmed e.text
  | .child => trimmed (childText e (ns ++ it.node))
  | .attr => given (dget (ns ++ it.node) e.attrs)
  | _ => none

/-- What a text denotes for a scalar attribute. -/
def denotes {C F : Type} [PyExt F] (strict : Bool) (it : Item C) (t : Str) : Option (Val C F) :=
  match it.get with
  | .nodeText | .subText | .attrText => some (.str t)
  | .subBool => (getBooleanValue F t strict).map .bool
  | .subInt | .attrInt => (intParse t).map .int
  | .subFloat | .attrFloat => (PyExt.parse t).map .float
  | .subEnum | .attrEnum => match it.classes with
    | [.enum en] => (getEnumValue en t strict).map (.enum en)
    | _ => none
  | .subDt => (KmlDateTime.parse (PyExt.arrowGet F) t).map .dt
  | _ => none

/-- The value of a scalar attribute in the first of the namespaces (given by their
ids) in which there is a meaningful text. -/
def firstValue {C F : Type} [PyExt F] (strict : Bool) (it : Item C) (N : NsMap) (e : Xml) :
    List Str → Option (Val C F)
  | [] => none
  | id :: ids => match itemText it (nsGet N id) e with
    | none => firstValue strict it N e ids
    | some t => match denotes strict it t with
      | none => firstValue strict it N e ids
      | some v => some v

/-- The two elements have the same relevant content for reading as class `c`.
`T` says when two texts are to be considered the same for an item.

* The text of the element matters if there is an item for it.
* XML attributes matter for which there is an item, in the namespaces of the item.
* Of the children with the name of a scalar item only the text of the first matters.
* Of the children with the name of an item for a list of texts the texts matter, in order.
* Of the children with the name of a class of an object item the first matters,
  and only its relevant content.
* Of the children with the name of a class of a list item all matter, in order. -/
inductive Agree {C : Type} [DecidableEq C] (T : Item C → Option Str → Option Str → Prop) (L : Lib C)
    (N : NsMap) : C → Xml → Xml → Prop where
  | mk {c : C} {e e' : Xml}
    (text : ∀ it ∈ L.itemsOf c, place it.get = .text → T it e.text e'.text)
    (attr : ∀ it ∈ L.itemsOf c, place it.get = .attr → ∀ id ∈ it.nsIds,
      T it (e.get (nsGet N id ++ it.node)) (e'.get (nsGet N id ++ it.node)))
    (child : ∀ it ∈ L.itemsOf c, place it.get = .child → ∀ id ∈ it.nsIds,
      T it (childText e (nsGet N id ++ it.node)) (childText e' (nsGet N id ++ it.node)))
    (children : ∀ it ∈ L.itemsOf c, place it.get = .children → ∀ id ∈ it.nsIds,
      All2 (fun k k' => T it k.text k'.text) (e.findall (nsGet N id ++ it.node))
        (e'.findall (nsGet N id ++ it.node)))
    (object : ∀ it ∈ L.itemsOf c, place it.get = .object → ∀ id ∈ it.nsIds, ∀ d, .cls d ∈ it.classes →
      ((e.find (nsGet N id ++ (L.info d).tag)).isSome = (e'.find (nsGet N id ++ (L.info d).tag)).isSome))
    (objectAgree : ∀ it ∈ L.itemsOf c, place it.get = .object → ∀ id ∈ it.nsIds, ∀ d, .cls d ∈ it.classes →
      ∀ k k', e.find (nsGet N id ++ (L.info d).tag) = some k →
        e'.find (nsGet N id ++ (L.info d).tag) = some k' → Agree T L N d k k')
    (objects : ∀ it ∈ L.itemsOf c, place it.get = .objects → ∀ id ∈ it.nsIds, ∀ d, .cls d ∈ it.classes →
      (e.findall (nsGet N id ++ (L.info d).tag)).length = (e'.findall (nsGet N id ++ (L.info d).tag)).length)
    (objectsAgree : ∀ it ∈ L.itemsOf c, place it.get = .objects → ∀ id ∈ it.nsIds, ∀ d, .cls d ∈ it.classes →
      ∀ p ∈ (e.findall (nsGet N id ++ (L.info d).tag)).zip (e'.findall (nsGet N id ++ (L.info d).tag)),
        Agree T L N d p.1 p.2) :
    Agree T L N c e e'

/-- Texts are the same only if they are equal. -/
def sameText {C : Type} : Item C → Option Str → Option Str → Prop := fun _ t t' => t = t'

/-- Texts are the same up to whitespace at the ends; for text that is stored or
interpreted as a whole a missing text and a blank text are the same. -/
def sameUpToSpace {C : Type} : Item C → Option Str → Option Str → Prop := fun it t t' =>
  match it.get with
  | .subDtList => t = t'
  | .coordinates => t.map strip = t'.map strip
  | .coordsList => t = t' ∨ (t.map strip = t'.map strip ∧ trimmed t ≠ none)
  | .attrText | .attrInt | .attrFloat | .attrEnum => t = t'
  | _ => trimmed t = trimmed t'

/-- The text denotes nothing for the item, in lenient mode: it is missing or blank
or malformed. -/
def Worthless {C : Type} (F : Type) [PyExt F] (it : Item C) (t : Option Str) : Prop :=
  match it.get with
  | .subBool | .subInt | .subFloat | .subEnum | .subDt =>
    ∀ s, trimmed t = some s → (denotes false it s : Option (Val C F)) = none
  | .attrFloat | .attrEnum => ∀ s, given t = some s → (denotes false it s : Option (Val C F)) = none
  | .coordinates => ∀ s, t = some s → (tuplesOf (latlons s) : Option (List (Pt F))) = none
  | _ => False

/-- Texts are equal, or neither denotes a value in lenient mode. -/
def sameLenient {C : Type} (F : Type) [PyExt F] : Item C → Option Str → Option Str → Prop :=
  fun it t t' => t = t' ∨ (Worthless F it t ∧ Worthless F it t')

end Verif.Spec

namespace Verif.Spec

/-- The tag is one that a single-valued item of the class looks for. -/
def SingleTag {C : Type} [DecidableEq C] (L : Lib C) (N : NsMap) (c : C) (tag : Str) : Prop :=
  ∃ it ∈ L.itemsOf c, ∃ id ∈ it.nsIds,
    (place it.get = .child ∧ tag = nsGet N id ++ it.node) ∨
    (place it.get = .object ∧ ∃ d, .cls d ∈ it.classes ∧ tag = nsGet N id ++ (L.info d).tag)

/-- The tag is one that a list-valued item of the class looks for. -/
def ListTag {C : Type} [DecidableEq C] (L : Lib C) (N : NsMap) (c : C) (tag : Str) : Prop :=
  ∃ it ∈ L.itemsOf c, ∃ id ∈ it.nsIds,
    (place it.get = .children ∧ tag = nsGet N id ++ it.node) ∨
    (place it.get = .objects ∧ ∃ d, .cls d ∈ it.classes ∧ tag = nsGet N id ++ (L.info d).tag)

/-- The key is that of an XML attribute which an item of the class looks for. -/
def AttrKey {C : Type} [DecidableEq C] (L : Lib C) (N : NsMap) (c : C) (key : Str) : Prop :=
  ∃ it ∈ L.itemsOf c, ∃ id ∈ it.nsIds, place it.get = .attr ∧ key = nsGet N id ++ it.node

/-- How an object stores a scalar: identifiers are kept verbatim and default to
the empty text, other text is trimmed, blank text is `None`. -/
def stored {C F : Type} (ident : Bool) : Option (Val C F) → Val C F
  | none => if ident then .str [] else .none
  | some (.str t) => if ident then .str t else match trimmed (some t) with
    | none => .none
    | some u => .str u
  | some v => v

/-- `bool(v)` is `True`. -/
def nonEmpty {C F : Type} [DecidableEq C] [PyExt F] (L : Lib C) (v : Val C F) : Bool :=
  match truthy L v with
  | .ok b => b
  | .error _ => false

/-- The part of a tag after the last `}`. -/
def localName (s : Str) : Str := (s.reverse.takeWhile (fun c => c != '}')).reverse

/-- The same document up to whitespace: the text of an element (before its first child) is
the same up to whitespace at its ends, blank counting as missing, except that
`coordinates`, `coord`, `angles` and `when` elements keep having or not having a text, a
blank `coord` or `angles` is not changed, and the text of a `when` is not changed at all. -/
inductive Respaced : Xml → Xml → Prop where
  | mk {t a x x' ks ks'} (h : trimmed x = trimmed x')
      (hs : localName t ∈ [s% "coordinates", s% "coord", s% "angles", s% "when"] → x.map strip = x'.map strip)
      (hb : localName t ∈ [s% "coord", s% "angles"] → x = x' ∨ trimmed x ≠ none)
      (hw : localName t = s% "when" → x = x')
      (hlen : ks.length = ks'.length) (hks : ∀ p ∈ ks.zip ks', Respaced p.1 p.2) :
      Respaced (.mk t a x ks) (.mk t a x' ks')

/-- Elements without children. -/
theorem Respaced.leaf {t : Str} {a : List (Str × Str)} {x x' : Option Str} (h : trimmed x = trimmed x')
    (hs : localName t ∈ [s% "coordinates", s% "coord", s% "angles", s% "when"] → x.map strip = x'.map strip)
    (hb : localName t ∈ [s% "coord", s% "angles"] → x = x' ∨ trimmed x ≠ none)
    (hw : localName t = s% "when" → x = x') : Respaced (.mk t a x []) (.mk t a x' []) :=
  .mk h hs hb hw rfl (by intro p hp; cases hp)

/-- Elements with children and no text. -/
theorem Respaced.node {t : Str} {a : List (Str × Str)} {x x' : Option Str} {ks ks' : List Xml}
    (hx : trimmed x = none) (hx' : trimmed x' = none)
    (hc : localName t ∉ [s% "coordinates", s% "coord", s% "angles", s% "when"])
    (hlen : ks.length = ks'.length) (hks : ∀ p ∈ ks.zip ks', Respaced p.1 p.2) :
    Respaced (.mk t a x ks) (.mk t a x' ks') := by
  refine .mk (hx.trans hx'.symm) (fun h => absurd h hc) (fun h => absurd ?_ hc) (fun h => absurd ?_ hc) hlen hks
  · simp only [List.mem_cons, List.not_mem_nil, or_false] at h ⊢
    rcases h with h | h <;> simp [h]
  · simp [h]

end Verif.Spec
