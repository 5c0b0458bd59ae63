import Verif.Lemmas.Xsd
import Verif.Spec.Simple

/-!
# What the classes write, compared with the schemas
-/

set_option linter.unusedSectionVars false
set_option linter.unusedSimpArgs false

namespace Verif

open Spec

variable {F : Type} [PyExt F]

/-! ## What a class writes -/

/-- The typed element with this name. -/
def typeIn (ps : List Part) (q : QN) : Typed :=
  match ps.findSome? (fun p => p.elems.find? fun t => t.1.same q) with
  | some t => (q, t.2)
  | none => (q, none)

/-- An altitude mode of the extension. -/
def isSea (x : Str) : Bool := decide (x = s% "clampToSeaFloor" ∨ x = s% "relativeToSeaFloor")

/-- The names of the children an item writes. -/
def namesOf (c : Cls) (it : Item Cls) : List QN :=
  match it.get with
  | .subDt | .subDtList => [.q .kml it.node]
  | .subEnum => match it.classes with
    | [.enum .altitudeMode] => [.q .kml it.node, .q .gx it.node]
    | _ => [.q (xnsOf c) it.node]
  | _ => [.q (xnsOf c) it.node]

/-- The namespace of the child for a scalar. -/
def valNs (c : Cls) : Val Cls F → XNs
  | .enum .altitudeMode x => if isSea x then .gx else .kml
  | .dt _ => .kml
  | _ => xnsOf c

/-- The child for an object of class `d`. -/
def kidType (c : Cls) (it : Item Cls) (d : Cls) : Typed :=
  (elemName d, if decide (c = .IconStyle) && sameStr it.attr (s% "icon") then some basicLink else elemType d)

/-- The classes of an item. -/
def clsList (it : Item Cls) : List Cls := it.classes.filterMap fun | .cls d => some d | _ => none

/-- The text of this item is always written. -/
def sureText (c : Cls) (it : Item Cls) : Bool :=
  match (fastkml.info c).bool with
  | .allTruthy l => (decide (it.get = .subText) || decide (it.get = .attrText)) && decide (it.dflt = .none) &&
      l.any (sameStr it.attr)
  | _ => false

/-- The shapes of the blocks of children of an item. -/
def shapesOf (ps : List Part) (quiet : List Str) (c : Cls) (it : Item Cls) : List Shape :=
  if quiet.any (sameStr it.attr) then [] else
  match place it.get with
  | .text | .attr => []
  | .child => [if sureText c it then .sure ((namesOf c it).map (typeIn ps)) else .one ((namesOf c it).map (typeIn ps))]
  | .children => [.many ((namesOf c it).map (typeIn ps))]
  | .object => [.one ((clsList it).map (kidType c it))]
  | .objects => match c with
    | .Style => [.IconStyle, .LabelStyle, .LineStyle, .PolyStyle, .BalloonStyle].map fun d => .one [kidType c it d]
    | .ExtendedData => [.many [kidType c it .Data], .many [kidType c it .SchemaData]]
    | .KML => [.one [kidType c it .NetworkLinkControl],
        .one (((clsList it).filter fun d => decide (d ≠ .NetworkLinkControl)).map (kidType c it))]
    | _ => [.many ((clsList it).map (kidType c it))]

/-- The simple types of numbers in a range. -/
def rangeTypes : List QN := [.q .kml (s% "anglepos90Type"), .q .kml (s% "angle90Type"), .q .kml (s% "anglepos180Type"),
  .q .kml (s% "angle180Type"), .q .kml (s% "angle360Type"), .q .gx (s% "outerWidthType")]

/-- The simple types of texts with a notation. -/
def notedTypes : List QN := [.q .kml (s% "colorType"), .q .xs (s% "ID"), .q .xs (s% "NCName"),
  .q .atom (s% "atomMediaType"), .q .atom (s% "atomEmailAddress"), .q .atom (s% "atomLanguageTag")]

/-- The item has values of the kind that the type is about. -/
def writerFits (g : GetFn) (ty : QN) : Bool :=
  if ty.same (.q .xs (s% "double")) || ty.same (.q .xs (s% "float")) then
    decide (g = .subFloat) || decide (g = .attrFloat) || decide (g = .subInt) || decide (g = .attrInt)
  else if rangeTypes.any ty.same then decide (g = .subFloat) || decide (g = .attrFloat)
  else if ty.same (.q .kml (s% "dateTimeType")) then decide (g = .subDt) || decide (g = .subDtList)
  else if notedTypes.any ty.same then decide (g = .subText) || decide (g = .attrText)
  else true

/-- The texts of the item that satisfy `sel` are values of the type. -/
def facet (it : Item Cls) (sel : Str → Bool) (ty : QN) : Bool :=
  match enumDecl ty with
  | some e => (decide (it.get = .subEnum) || decide (it.get = .attrEnum)) && match it.classes with
    | [.enum en] => en.values.all fun x => !sel x || e.values.any (sameStr x)
    | _ => false
  | none =>
    if ty.same (.q .xs (s% "boolean")) then decide (it.get = .subBool)
    else if ty.same (.q .xs (s% "int")) || ty.same (.q .xs (s% "integer")) then
      decide (it.get = .subInt) || decide (it.get = .attrInt)
    else writerFits it.get ty

/-- An item whose texts are of types that accept every text. -/
def freeItem : Item Cls := ⟨[], [], [], .nodeText, .nodeText, [], .none⟩

/-- The values that are written in the child `q`. -/
def goesTo (it : Item Cls) (q : QN) (x : Str) : Bool :=
  match it.classes with
  | [.enum .altitudeMode] => match q with
    | .q .gx _ => isSea x
    | _ => !isSea x
  | _ => true

/-- What is needed of a child with a text. -/
def leafOk (ps : List Part) (it : Item Cls) (q : QN) : Bool :=
  match (typeIn ps q).2 with
  | some ty => match typeDecl ty with
    | none => facet it (goesTo it q) ty
    | some d => d.text && ((partsOf 8 ty).all fun p => Nat.beq p.min 0) && (typeAttrs 8 ty).all fun a => !a.required
  | none => false

/-- What is needed of an item. -/
def itemValid (ps : List Part) (as : List XAttr) (quiet : List Str) (c : Cls) (it : Item Cls) : Bool :=
  match place it.get with
  | .attr => as.any fun a => sameStr a.name it.node && match a.type with
    | none => true
    | some ty => facet it (fun _ => true) ty
  | .child | .children => quiet.any (sameStr it.attr) || (namesOf c it).all (leafOk ps it)
  | _ => true

/-- A required attribute is always written. -/
def requiredOk (c : Cls) (a : XAttr) : Bool :=
  !a.required || (fastkml.itemsOf c).any fun it => decide (it.get = .attrText) && sameStr it.node a.name && sureText c it

/-- What is needed of a class, written as an element of type `t`, when the attributes
`quiet` give no children. -/
def classValid (t : QN) (quiet : List Str) (c : Cls) : Bool :=
  match typeDecl t with
  | none => ((fastkml.itemsOf c).all fun it => decide (place it.get = .text)) && facet freeItem (fun _ => true) t
  | some ty => fits 60 (partsOf 8 t) ((fastkml.itemsOf c).flatMap (shapesOf (partsOf 8 t) quiet c)) &&
      ((fastkml.itemsOf c).all (itemValid (partsOf 8 t) (typeAttrs 8 t) quiet c)) &&
      ((typeAttrs 8 t).all (requiredOk c)) &&
      (ty.text || (fastkml.itemsOf c).all fun it => decide (place it.get ≠ .text))

/-- The attributes that give no children, for a class in general. -/
def quietOf : Cls → List (List Str)
  | .Document => [[s% "features"], [s% "schemata"]]
  | _ => [[]]

set_option maxRecDepth 10000 in
theorem fastkml_classValid (c : Cls) {t : QN} (h : elemType c = some t) {quiet : List Str} (hq : quiet ∈ quietOf c) :
    classValid t quiet c = true := by
  have key : ∀ c ∈ Cls.all, (match elemType c with
      | none => true
      | some t => (quietOf c).all fun quiet => classValid t quiet c) = true := by decide +kernel
  have := key c (Cls.mem_all c)
  rw [h] at this
  exact List.all_eq_true.mp this quiet hq

set_option maxRecDepth 10000 in
theorem basic_classValid : classValid basicLink linkExtras .Icon = true := by decide +kernel

/-! ## Names only -/

/-- The names of the children of an item. -/
def kidNames (c : Cls) (it : Item Cls) : List QN :=
  match place it.get with
  | .text | .attr => []
  | .child | .children => namesOf c it
  | .object | .objects => (clsList it).map elemName

/-- The names an item writes are declared for the type. -/
def namesValid (t : QN) (c : Cls) : Bool :=
  (fastkml.itemsOf c).all fun it => ((kidNames c it).all fun q => (partsOf 8 t).any fun p => p.elems.any fun x => x.1.same q) &&
    (decide (place it.get ≠ .attr) || (typeAttrs 8 t).any fun a => sameStr a.name it.node)

set_option maxRecDepth 10000 in
theorem fastkml_namesValid (c : Cls) {t : QN} (h : elemType c = some t) : namesValid t c = true := by
  have key : ∀ c ∈ Cls.all, (match elemType c with
      | none => true
      | some t => namesValid t c) = true := by decide +kernel
  have := key c (Cls.mem_all c)
  rw [h] at this
  exact this

set_option maxRecDepth 10000 in
theorem icon_item {it : Item Cls} (hit : it ∈ fastkml.itemsOf .IconStyle) (ha : it.attr = s% "icon") :
    it.get = .xmlSub ∧ it.classes = [.cls .Icon] := by
  have key : ∀ it ∈ fastkml.itemsOf .IconStyle, it.attr = s% "icon" → it.get = .xmlSub ∧ it.classes = [.cls .Icon] := by
    decide +kernel
  exact key it hit ha

set_option maxRecDepth 10000 in
theorem document_item {it : Item Cls} (hit : it ∈ fastkml.itemsOf .Document)
    (ha : it.attr = s% "features" ∨ it.attr = s% "schemata") : it.get = .xmlSubList := by
  have key : ∀ it ∈ fastkml.itemsOf .Document, it.attr = s% "features" ∨ it.attr = s% "schemata" → it.get = .xmlSubList := by
    decide +kernel
  exact key it hit ha

set_option maxRecDepth 10000 in
theorem icon_extra {it : Item Cls} (hit : it ∈ fastkml.itemsOf .Icon) (ha : it.attr ∈ linkExtras) : place it.get = .child := by
  have key : ∀ it ∈ fastkml.itemsOf .Icon, it.attr ∈ linkExtras → place it.get = .child := by decide +kernel
  exact key it hit ha

end Verif
