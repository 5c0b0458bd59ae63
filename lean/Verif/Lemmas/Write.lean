import Verif.Lemmas.Val
import Verif.Spec.Lists

/-!
# What each registration item contributes to the written element
-/

set_option linter.unusedSectionVars false
set_option linter.unusedSimpArgs false

namespace Verif

open Spec

variable {C F : Type} [DecidableEq C] [PyExt F]

/-- What a writer adds to an element: at most an attribute, at most a text, and
children. -/
structure Contrib where
  attr : Option (Str × Str) := none
  text : Option Str := none
  kids : List Xml := []

/-- Add a contribution. -/
def Contrib.apply (k : Contrib) (el : Xml) : Xml :=
  .mk el.tag (match k.attr with | none => el.attrs | some p => dset p.1 p.2 el.attrs)
    (match k.text with | none => el.text | some t => some t) (el.kids ++ k.kids)

/-- `str(value)` of a scalar. -/
def numText (v : Val C F) : Except Err (Option Str) :=
  match v with
  | .none => .ok none
  | v => match pyStr v with
    | .error e => .error e
    | .ok s => .ok (some s)

/-- The text of a string attribute, if any. -/
def strText (v : Val C F) : Except Err (Option Str) :=
  match v with
  | .none => .ok none
  | .str s => if s.isEmpty then .ok none else .ok (some s)
  | _ => .error .illTyped

/-- The children for a list of members. -/
def elemKids : List (Except Err Bool × Except Err Xml) → Except Err (List Xml)
  | [] => .ok []
  | (t, x) :: r => match t with
    | .error e => .error e
    | .ok false => elemKids r
    | .ok true => match x with
      | .error e => .error e
      | .ok x => match elemKids r with
        | .error e => .error e
        | .ok xs => .ok (x :: xs)

/-- An optional text as one leaf child. -/
def leafK (tag : Str) : Except Err (Option Str) → Except Err Contrib
  | .error e => .error e
  | .ok none => .ok {}
  | .ok (some s) => .ok { kids := [.leaf tag s] }

/-- An optional text as an attribute. -/
def attrK (key : Str) : Except Err (Option Str) → Except Err Contrib
  | .error e => .error e
  | .ok none => .ok {}
  | .ok (some s) => .ok { attr := some (key, s) }

/-- An optional text as the text of the element. -/
def textK : Except Err (Option Str) → Except Err Contrib
  | .error e => .error e
  | .ok none => .ok {}
  | .ok (some s) => .ok { text := some s }

/-- The contribution of an item. -/
def contrib (it : Item C) (ns : Str) (nss : NsMap) (o : Opts) (sv : SView C F) : Except Err Contrib :=
  let v := getValue sv.v o.verbosity it.dflt
  match it.set with
  | .nodeText => textK (strText v)
  | .subText => leafK (ns ++ it.node) (strText v)
  | .attrText => attrK it.node (strText v)
  | .subBool => leafK (ns ++ it.node) (match v with
    | .none => .ok none
    | .bool b => .ok (some (intRepr (if b then 1 else 0)))
    | .int i => .ok (some (intRepr i))
    | _ => .error .illTyped)
  | .subInt => leafK (ns ++ it.node) (numText v)
  | .attrInt => attrK it.node (numText v)
  | .subFloat => leafK (ns ++ it.node) (numText v)
  | .attrFloat => attrK it.node (numText v)
  | .subEnum => match v with
    | .none => .ok {}
    | .enum e x => .ok { kids := [.leaf (getNs ns nss (.enum e x : Val C F) ++ it.node) x] }
    | _ => .error .illTyped
  | .attrEnum => attrK it.node (match v with
    | .none => .ok none
    | .enum _ x => .ok (some x)
    | _ => .error .illTyped)
  | .subDt => match v with
    | .none => .ok {}
    | .dt k => .ok { kids := [.leaf (getNs ns nss (.dt k : Val C F) ++ it.node) k.toStr] }
    | _ => .error .illTyped
  | .subDtList => match v with
    | .none => .ok {}
    | .whens l => .ok { kids := l.map (whenLeaf ns nss it.node) }
    | _ => .error .illTyped
  | .coordsList => match v with
    | .none => .ok {}
    | .coords l => .ok { kids := l.map fun c => .leaf (ns ++ it.node) (coordText o.precision c) }
    | .floats l => if l.isEmpty then .ok {} else .error .typeError
    | _ => .error .illTyped
  | .coordinates => match sv.v with
    | .none => .ok {}
    | .coords [] => .ok {}
    | .coords (c :: l) =>
      if c.length = 2 ∨ c.length = 3 then .ok { text := some (coordsText o.precision (c :: l)) }
      else .error .writeError
    | _ => .error .illTyped
  | .xmlSub => match sv.truthy with
    | .error e => .error e
    | .ok false => .ok {}
    | .ok true => match sv.xml with
      | .error e => .error e
      | .ok x => .ok { kids := [x] }
  | .xmlSubList => match sv.v with
    | .none => .ok {}
    | .list _ => match elemKids sv.elems with
      | .error e => .error e
      | .ok xs => .ok { kids := xs }
    | _ => .error .illTyped

theorem apply_empty (el : Xml) : Contrib.apply {} el = el := by
  cases el; simp [Contrib.apply, Xml.tag, Xml.attrs, Xml.text, Xml.kids]

theorem serElems_eq (l : List (Except Err Bool × Except Err Xml)) (el : Xml) :
    serElems l el = match elemKids l with
      | .error e => .error e
      | .ok xs => .ok (Contrib.apply { kids := xs } el) := by
  induction l generalizing el with
  | nil => simp only [serElems, elemKids]; rw [show ({ kids := [] } : Contrib) = {} from rfl, apply_empty]
  | cons p r ih =>
    obtain ⟨t, x⟩ := p
    simp only [serElems, elemKids]
    cases t with
    | error e => rfl
    | ok b =>
      cases b with
      | false => exact ih el
      | true =>
        cases x with
        | error e => rfl
        | ok x =>
          simp only [ih]
          cases elemKids r with
          | error e => rfl
          | ok xs => simp [Contrib.apply, Xml.append, Xml.tag, Xml.attrs, Xml.text, Xml.kids]

/-- Writing an item is adding its contribution. -/
theorem setElement_eq (it : Item C) (ns : Str) (nss : NsMap) (o : Opts) (sv : SView C F) (el : Xml) :
    setElement it ns nss o sv el = match contrib it ns nss o sv with
      | .error e => .error e
      | .ok k => .ok (k.apply el) := by
  unfold setElement contrib
  have hleaf : ∀ t s, el.append (.leaf t s) = Contrib.apply { kids := [.leaf t s] } el := by
    intros; simp [Contrib.apply, Xml.append]
  have hattr : ∀ t s, el.setAttr t s = Contrib.apply { attr := some (t, s) } el := by
    intros; simp [Contrib.apply, Xml.setAttr]
  have htext : ∀ s, el.setText s = Contrib.apply { text := some s } el := by
    intros; simp [Contrib.apply, Xml.setText]
  have happ : ∀ ks, el.appends ks = Contrib.apply { kids := ks } el := by
    intros; simp [Contrib.apply, Xml.appends]
  generalize getValue sv.v o.verbosity it.dflt = v
  cases it.set <;> simp only
  case nodeText =>
    cases v <;> simp [setNodeText, textK, strText, apply_empty]
    rename_i s; by_cases h : s = [] <;> simp [h, apply_empty, htext]
  case subText =>
    cases v <;> simp [setSubText, leafK, strText, apply_empty]
    rename_i s; by_cases h : s = [] <;> simp [h, apply_empty, hleaf]
  case attrText =>
    cases v <;> simp [setAttrText, attrK, strText, apply_empty]
    rename_i s; by_cases h : s = [] <;> simp [h, apply_empty, hattr]
  case subBool => cases v <;> simp [setSubBool, leafK, apply_empty, hleaf]
  case subInt => cases v <;> simp [setSubNum, leafK, numText, pyStr, apply_empty, hleaf]
  case attrInt => cases v <;> simp [setAttrNum, attrK, numText, pyStr, apply_empty, hattr]
  case subFloat => cases v <;> simp [setSubNum, leafK, numText, pyStr, apply_empty, hleaf]
  case attrFloat => cases v <;> simp [setAttrNum, attrK, numText, pyStr, apply_empty, hattr]
  case subEnum => cases v <;> simp [setSubEnum, apply_empty, hleaf]
  case attrEnum => cases v <;> simp [setAttrEnum, attrK, apply_empty, hattr]
  case subDt => cases v <;> simp [setSubDt, apply_empty, hleaf]
  case subDtList => cases v <;> simp [setSubDtList, apply_empty, happ]
  case coordsList =>
    cases v <;> simp [setCoordsList, apply_empty, happ]
    rename_i l; by_cases h : l = [] <;> simp [h, apply_empty]
  case coordinates =>
    cases sv.v <;> simp [setCoordinates, apply_empty]
    rename_i l
    cases l with
    | nil => simp [setCoordinates, apply_empty]
    | cons c l =>
      simp only [setCoordinates]
      by_cases h : c.length = 2 ∨ c.length = 3 <;> simp [h, htext]
  case xmlSub =>
    simp only [setXmlSub]
    cases sv.truthy with
    | error e => rfl
    | ok b =>
      cases b with
      | false => simp [apply_empty]
      | true =>
        cases sv.xml with
        | error e => rfl
        | ok x => simp [Contrib.apply, Xml.append]
  case xmlSubList =>
    simp only [setXmlSubList]
    cases sv.v <;> simp [apply_empty]
    rw [serElems_eq]
    cases elemKids sv.elems <;> rfl

/-- The XML attributes written. -/
def attrsOf (ks : List Contrib) : List (Str × Str) :=
  (ks.filterMap (·.attr)).foldl (fun d p => dset p.1 p.2 d) []

/-- The text written: the last one. -/
def textOf (ks : List Contrib) : Option Str := (ks.filterMap (·.text)).getLast?

/-- Adding contributions one after the other. -/
theorem foldl_apply (ks : List Contrib) (el : Xml) :
    ks.foldl (fun el k => k.apply el) el =
      .mk el.tag ((ks.filterMap (·.attr)).foldl (fun d p => dset p.1 p.2 d) el.attrs)
        ((textOf ks).or el.text) (el.kids ++ ks.flatMap (·.kids)) := by
  induction ks generalizing el with
  | nil => cases el; simp [textOf, Xml.tag, Xml.attrs, Xml.text, Xml.kids]
  | cons k ks ih =>
    rw [List.foldl_cons, ih]
    simp only [Contrib.apply, Xml.tag, Xml.attrs, Xml.text, Xml.kids, List.flatMap_cons,
      List.append_assoc, Xml.mk.injEq, true_and, and_true]
    constructor
    · cases hk : k.attr with
      | none => simp [List.filterMap_cons, hk]
      | some p => simp [List.filterMap_cons, hk]
    · unfold textOf
      cases hk : k.text with
      | none => simp [List.filterMap_cons, hk]
      | some t =>
        simp only [List.filterMap_cons, hk]
        cases h : ks.filterMap (·.text) with
        | nil => simp
        | cons a l =>
          obtain ⟨z, hz⟩ : ∃ z, (a :: l).getLast? = some z := by
            cases hq : (a :: l).getLast? with
            | none => simp at hq
            | some z => exact ⟨z, rfl⟩
          rw [List.getLast?_cons_cons, hz]; simp

/-- Writing the items is adding their contributions in order. -/
theorem setAll_iff {ns : Str} {nss : NsMap} {o : Opts} {sp : Special} {attrs : List (Str × SView C F)}
    {items : List (Item C)} {el e : Xml} :
    setAll ns nss o sp attrs items el = .ok e ↔
    ∃ ks, All2 (fun it k => contrib it ns nss o (getattr sp attrs it.attr) = .ok k) items ks ∧
      e = ks.foldl (fun el k => k.apply el) el := by
  induction items generalizing el with
  | nil =>
    simp only [setAll, Except.ok.injEq]
    constructor
    · rintro rfl; exact ⟨[], .nil, rfl⟩
    · rintro ⟨ks, h, rfl⟩; cases h; rfl
  | cons it items ih =>
    simp only [setAll, setElement_eq]
    constructor
    · intro h
      split at h
      · cases h
      · rename_i el' hel
        split at hel
        · cases hel
        · rename_i k hk
          simp at hel; subst hel
          obtain ⟨ks, h1, h2⟩ := ih.mp h
          exact ⟨k :: ks, .cons hk h1, h2⟩
    · rintro ⟨ks, h, rfl⟩
      cases h with
      | cons hk hks =>
        rw [hk]
        exact ih.mpr ⟨_, hks, rfl⟩

theorem setAll_error {ns : Str} {nss : NsMap} {o : Opts} {sp : Special} {attrs : List (Str × SView C F)}
    {items : List (Item C)} {el : Xml} {x : Err} (h : setAll ns nss o sp attrs items el = .error x) :
    ∃ it ∈ items, contrib it ns nss o (getattr sp attrs it.attr) = .error x := by
  induction items generalizing el with
  | nil => cases h
  | cons it items ih =>
    simp only [setAll, setElement_eq] at h
    split at h
    · rename_i e he
      simp at h; subst h
      split at he
      · rename_i e' he'
        simp at he; subst he
        exact ⟨it, by simp, he'⟩
      · cases he
    · obtain ⟨it', hit', hx⟩ := ih h
      exact ⟨it', by simp [hit'], hx⟩

/-- The element written for an object that is not a `KML`. -/
theorem ser_iff {L : Lib C} {o : Opts} {c : C} (hc : (L.info c).special ≠ .kml) {ns : Str} {nss : NsMap}
    {attrs : List (Str × Val C F)} {e : Xml} :
    ser L o (.obj c ns nss attrs) = .ok e ↔
    ∃ ks, All2 (fun it k => contrib it ns nss o
        (getattr (L.info c).special (serAttrs L o attrs) it.attr) = .ok k) (L.itemsOf c) ks ∧
      e = .mk (ns ++ (L.info c).tag) (attrsOf ks) (textOf ks) (ks.flatMap (·.kids)) := by
  rw [ser_obj]
  simp only [serStep, hc, if_false, setAll_iff]
  constructor
  · rintro ⟨ks, h, rfl⟩
    refine ⟨ks, h, ?_⟩
    rw [foldl_apply]
    simp [Xml.new, Xml.tag, Xml.attrs, Xml.text, Xml.kids, attrsOf]
  · rintro ⟨ks, h, rfl⟩
    refine ⟨ks, h, ?_⟩
    rw [foldl_apply]
    simp [Xml.new, Xml.tag, Xml.attrs, Xml.text, Xml.kids, attrsOf]

theorem elemKids_iff {l : List (Except Err Bool × Except Err Xml)} {xs : List Xml}
    (h : elemKids l = .ok xs) : (∀ p ∈ l, ∃ b, p.1 = .ok b) ∧
    All2 (fun p x => p.2 = .ok x) (l.filter fun p => match p.1 with | .ok b => b | _ => false) xs := by
  induction l generalizing xs with
  | nil => simp [elemKids] at h; subst h; exact ⟨by simp, .nil⟩
  | cons p r ih =>
    obtain ⟨t, x⟩ := p
    simp only [elemKids] at h
    cases t with
    | error e => cases h
    | ok b =>
      cases b with
      | false =>
        obtain ⟨h1, h2⟩ := ih h
        refine ⟨?_, by simpa using h2⟩
        intro p hp
        rcases List.mem_cons.mp hp with rfl | hp
        · exact ⟨_, rfl⟩
        · exact h1 p hp
      | true =>
        simp only at h
        split at h
        · cases h
        · rename_i x' 
          split at h
          · cases h
          · rename_i xs' hxs'
            simp at h; subst h
            obtain ⟨h1, h2⟩ := ih hxs'
            refine ⟨?_, ?_⟩
            · intro p hp
              rcases List.mem_cons.mp hp with rfl | hp
              · exact ⟨_, rfl⟩
              · exact h1 p hp
            · simp only [List.filter_cons, if_true]
              exact .cons rfl h2

theorem elemKids_error {l : List (Except Err Bool × Except Err Xml)} {x : Err}
    (h : elemKids l = .error x) : ∃ p ∈ l, p.1 = .error x ∨ (p.1 = .ok true ∧ p.2 = .error x) := by
  induction l with
  | nil => cases h
  | cons p r ih =>
    obtain ⟨t, y⟩ := p
    simp only [elemKids] at h
    cases t with
    | error e => simp at h; subst h; exact ⟨_, List.mem_cons_self, Or.inl rfl⟩
    | ok b =>
      cases b with
      | false => obtain ⟨p, hp, hx⟩ := ih h; exact ⟨p, by simp [hp], hx⟩
      | true =>
        simp only at h
        split at h
        · rename_i e; simp at h; subst h; exact ⟨_, List.mem_cons_self, Or.inr ⟨rfl, rfl⟩⟩
        · split at h
          · rename_i e he; simp at h; subst h
            obtain ⟨p, hp, hx⟩ := ih he; exact ⟨p, by simp [hp], hx⟩
          · cases h

end Verif
