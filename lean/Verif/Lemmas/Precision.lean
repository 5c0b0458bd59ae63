import Verif.Lemmas.Write
import Verif.Lemmas.Coords
import Verif.Spec.Writing

/-!
# Writing with different precisions
-/

set_option linter.unusedSectionVars false
set_option linter.unusedSimpArgs false

namespace Verif

open Spec

variable {C F : Type} [DecidableEq C] [PyExt F]

theorem maskKids_eq (l : List Xml) : maskKids l = l.map mask := by
  induction l with
  | nil => simp [maskKids]
  | cons k l ih => simp [maskKids, ih]

theorem mask_mk (tag : Str) (attrs : List (Str × Str)) (text : Option Str) (kids : List Xml) :
    mask (.mk tag attrs text kids) = .mk tag attrs (text.map (maskText tag)) (kids.map mask) := by
  rw [mask, maskKids_eq]

theorem separators_append (a b : Str) : separators (a ++ b) = separators a ++ separators b := by
  simp [separators]

theorem separators_plain {s : Str} (h : Plain s) : separators s = [] := by
  unfold separators
  rw [List.filter_eq_nil_iff]
  intro c hc
  have := h.2 c hc
  simp only [decide_eq_true_eq, not_or]
  refine ⟨?_, this.2⟩
  rintro rfl
  rw [isSpace_blank] at this; cases this.1

/-- Two lists of parts with the same separators give the same when joined. -/
theorem separators_join {sep : Str} {l m : List Str} (h : All2 (fun a b => separators a = separators b) l m) :
    separators (join sep l) = separators (join sep m) := by
  induction h with
  | nil => rfl
  | @cons a b l m h1 h2 ih =>
    cases h2 with
    | nil => simpa [join] using h1
    | cons h3 h4 => simp only [join, separators_append, h1, ih]

variable [LawfulExt F]

theorem separators_fmt (p q : Option Nat) (sep : Str) (c : Pt F) :
    separators (join sep (c.map (fmt p))) = separators (join sep (c.map (fmt q))) := by
  refine separators_join (All2.map_left.mpr (All2.map_right.mpr (All2.refl fun f _ => ?_)))
  rw [separators_plain (fmt_plain p f), separators_plain (fmt_plain q f)]

theorem separators_coordsText (p q : Option Nat) (l : List (Pt F)) :
    separators (coordsText p l) = separators (coordsText q l) := by
  unfold coordsText
  exact separators_join (All2.map_left.mpr (All2.map_right.mpr (All2.refl fun c _ => separators_fmt p q _ c)))

/-! ## Contributions -/

/-- Same result up to the numbers of coordinates; `f` masks. -/
def SameE {α : Type} (f : α → α) (r s : Except Err α) : Prop :=
  match r, s with
  | .error x, .error y => x = y
  | .ok a, .ok b => f a = f b
  | _, _ => False

omit [PyExt F] [LawfulExt F] in
theorem SameE.refl {α : Type} (f : α → α) (r : Except Err α) : SameE f r r := by
  cases r <;> simp [SameE]

/-- A contribution to an element with the tag, masked. -/
def maskC (tag : Str) (k : Contrib) : Contrib := ⟨k.attr, k.text.map (maskText tag), k.kids.map mask⟩

/-- Coordinates are in elements for coordinates. -/
def precOk (L : Lib C) (c : C) : Bool :=
  (L.itemsOf c).all fun it => match it.set with
    | .coordinates => isCoordTag (L.info c).tag
    | .coordsList => isCoordTag it.node
    | _ => true

theorem endsIn_append {t s : Str} (r : Str) (h : endsIn t s = true) : endsIn t (r ++ s) = true := by
  simp only [endsIn, decide_eq_true_eq] at h ⊢
  have hl : t.length ≤ s.length := by
    have := congrArg List.length h
    rw [List.length_drop] at this
    omega
  rw [List.length_append, List.drop_append]
  have : r.length + s.length - t.length - r.length = s.length - t.length := by omega
  rw [this, h, List.drop_eq_nil_of_le (by omega)]
  rfl

theorem isCoordTag_append {s : Str} (r : Str) (h : isCoordTag s = true) : isCoordTag (r ++ s) = true := by
  simp only [isCoordTag, Bool.or_eq_true] at h ⊢
  rcases h with (h | h) | h
  · exact Or.inl (Or.inl (endsIn_append r h))
  · exact Or.inl (Or.inr (endsIn_append r h))
  · exact Or.inr (endsIn_append r h)

/-- The views of an attribute for two precisions. -/
structure SameView (sv sv' : SView C F) : Prop where
  v : sv.v = sv'.v
  truthy : sv.truthy = sv'.truthy
  xml : SameE mask sv.xml sv'.xml
  elems : All2 (fun p q => p.1 = q.1 ∧ SameE mask p.2 q.2) sv.elems sv'.elems

theorem elemKids_same {l m : List (Except Err Bool × Except Err Xml)}
    (h : All2 (fun p q => p.1 = q.1 ∧ SameE mask p.2 q.2) l m) :
    SameE (List.map mask) (elemKids l) (elemKids m) := by
  induction h with
  | nil => simp [elemKids, SameE]
  | @cons p q l m h1 _ ih =>
    obtain ⟨t, x⟩ := p
    obtain ⟨t', x'⟩ := q
    obtain ⟨rfl, hx⟩ := h1
    simp only [elemKids]
    cases t with
    | error e => simp [SameE]
    | ok b =>
      cases b with
      | false => exact ih
      | true =>
        simp only
        cases x <;> cases x' <;> simp only [SameE] at hx
        · subst hx; simp [SameE]
        · revert ih
          cases elemKids l <;> cases elemKids m <;> simp [SameE]
          intro h; exact ⟨hx, h⟩

theorem contrib_same {L : Lib C} {c : C} (hL : precOk L c = true) {it : Item C} (hit : it ∈ L.itemsOf c) (ns : Str)
    (nss : NsMap) (p q : Option Nat) (vb : Verbosity) {sv sv' : SView C F} (h : SameView sv sv') :
    SameE (maskC (ns ++ (L.info c).tag)) (contrib it ns nss ⟨p, vb⟩ sv) (contrib it ns nss ⟨q, vb⟩ sv') := by
  have hp := List.all_eq_true.mp hL it hit
  unfold contrib
  rw [← h.v]
  cases hs : it.set <;> simp only [hs] at hp ⊢ <;> try exact SameE.refl _ _
  case coordsList =>
    cases getValue sv.v vb it.dflt <;> try exact SameE.refl _ _
    rename_i l
    simp only [SameE, maskC, List.map_map, Option.map_none, Contrib.mk.injEq, true_and]
    refine List.map_congr_left fun c _ => ?_
    simp only [Function.comp, Xml.leaf, mask_mk, Option.map_some, maskText, isCoordTag_append ns hp, if_true, coordText,
      separators_fmt p q]
  case coordinates =>
    cases sv.v <;> try exact SameE.refl _ _
    rename_i l
    cases l with
    | nil => exact SameE.refl _ _
    | cons c' l =>
      simp only
      split
      · simp only [SameE, maskC, Option.map_some, maskText, isCoordTag_append ns hp, if_true, separators_coordsText p q]
      · exact SameE.refl _ _
  case xmlSub =>
    rw [← h.truthy]
    cases sv.truthy with
    | error e => exact SameE.refl _ _
    | ok b =>
      cases b with
      | false => exact SameE.refl _ _
      | true =>
        have := h.xml
        revert this
        cases sv.xml <;> cases sv'.xml <;> simp [SameE, maskC]
  case xmlSubList =>
    cases sv.v <;> try exact SameE.refl _ _
    have := elemKids_same h.elems
    revert this
    cases elemKids sv.elems <;> cases elemKids sv'.elems <;> simp [SameE, maskC]

theorem mask_apply {k k' : Contrib} {el el' : Xml} (hk : maskC el.tag k = maskC el.tag k')
    (he : mask el = mask el') : mask (k.apply el) = mask (k'.apply el') := by
  obtain ⟨t, a, x, ks⟩ := el
  obtain ⟨t', a', x', ks'⟩ := el'
  obtain ⟨ka, kx, kk⟩ := k
  obtain ⟨ka', kx', kk'⟩ := k'
  simp only [mask_mk, Xml.mk.injEq] at he
  simp only [maskC, Contrib.mk.injEq, Xml.tag] at hk
  obtain ⟨rfl, rfl, hx, hks⟩ := he
  obtain ⟨rfl, hkx, hkk⟩ := hk
  simp only [Contrib.apply, mask_mk, Xml.mk.injEq, Xml.tag, Xml.attrs, Xml.text, Xml.kids, true_and, List.map_append,
    hks, hkk, and_true]
  cases kx <;> cases kx' <;> simp at hkx
  · exact hx
  · simpa using hkx

theorem mask_tag (e : Xml) : (mask e).tag = e.tag := by cases e; rw [mask_mk]; rfl

theorem apply_tag (k : Contrib) (el : Xml) : (k.apply el).tag = el.tag := rfl

theorem setAll_same {L : Lib C} {c : C} (hL : precOk L c = true) (ns : Str) (nss : NsMap) (p q : Option Nat)
    (vb : Verbosity) (sp : Special) {attrs attrs' : List (Str × SView C F)}
    (h : ∀ a, SameView (getattr sp attrs a) (getattr sp attrs' a)) (items : List (Item C))
    (hi : ∀ it ∈ items, it ∈ L.itemsOf c) {el el' : Xml} (htag : el.tag = ns ++ (L.info c).tag)
    (he : mask el = mask el') :
    SameE mask (setAll ns nss ⟨p, vb⟩ sp attrs items el) (setAll ns nss ⟨q, vb⟩ sp attrs' items el') := by
  induction items generalizing el el' with
  | nil => exact he
  | cons it items ih =>
    simp only [setAll, setElement_eq]
    have := contrib_same hL (hi it (by simp)) ns nss p q vb (h it.attr)
    revert this
    cases contrib it ns nss ⟨p, vb⟩ (getattr sp attrs it.attr) <;>
      cases contrib it ns nss ⟨q, vb⟩ (getattr sp attrs' it.attr) <;> simp only [SameE, false_implies]
    · intro h; exact h
    · intro hk
      exact ih (fun i hi' => hi i (by simp [hi'])) htag (mask_apply (by rw [htag]; exact hk) he)

theorem getattr_same {L : Lib C} {o o' : Opts} {attrs : List (Str × Val C F)}
    (h : ∀ a v, (a, v) ∈ attrs → SameE mask (ser L o v) (ser L o' v))
    (hl : ∀ a l, (a, .list l) ∈ attrs → ∀ w ∈ l, SameE mask (ser L o w) (ser L o' w)) (sp : Special) (a : Str) :
    SameView (getattr sp (serAttrs L o attrs) a) (getattr sp (serAttrs L o' attrs) a) := by
  rw [getattr_serAttrs, getattr_serAttrs]
  split
  · exact ⟨rfl, rfl, SameE.refl _ _, .nil⟩
  · rename_i hn
    have hp : propOf sp attrs a = attrOf a attrs := by
      unfold propOf
      rw [if_neg (fun hh => hn ⟨hh.1, Or.inl hh.2⟩), if_neg (fun hh => hn ⟨hh.1, Or.inr (Or.inl hh.2)⟩),
        if_neg (fun hh => hn ⟨hh.1, Or.inr (Or.inr hh.2)⟩)]
    rw [hp]
    refine ⟨rfl, rfl, ?_, ?_⟩
    · by_cases hv : attrOf a attrs = .none
      · rw [hv]; simp [sview, ser, SameE]
      · exact h a _ (attrOf_mem rfl hv)
    · simp only [sview]
      cases hv : attrOf a attrs <;> simp only [serMembers] <;> try exact .nil
      rename_i l
      rw [serList_eq, serList_eq]
      exact All2.map_left.mpr (All2.map_right.mpr (All2.refl fun w hw =>
        ⟨rfl, hl a l (attrOf_mem hv (by simp)) w hw⟩))

theorem ser_same {L : Lib C} (hL : ∀ c, precOk L c = true) (p q : Option Nat) (vb : Verbosity) (v : Val C F) :
    SameE mask (ser L ⟨p, vb⟩ v) (ser L ⟨q, vb⟩ v) := by
  induction v using Val.objInd with
  | hother v hv => cases v <;> first | exact absurd rfl (hv _ _ _ _) | simp [ser, SameE]
  | hobj c ns nss attrs ih ihl =>
    rw [ser_obj, ser_obj]
    have hg := getattr_same (L := L) (o := ⟨p, vb⟩) (o' := ⟨q, vb⟩) ih ihl
    by_cases hk : (L.info c).special = .kml
    · simp only [serStep, hk, if_true]
      have hsame := hg .kml (s% "features")
      generalize (if ns = [] then (Xml.new (ns ++ (L.info c).tag)).setAttr (s% "xmlns") kmlUri
          else Xml.new (ns ++ (L.info c).tag)) = root
      simp only [setXmlSubList]
      rw [← hsame.v]
      cases (getattr .kml (serAttrs L ⟨p, vb⟩ attrs) (s% "features")).v <;> try exact SameE.refl _ _
      simp only [serElems_eq]
      have := elemKids_same hsame.elems
      revert this
      cases elemKids (getattr .kml (serAttrs L ⟨p, vb⟩ attrs) (s% "features")).elems <;>
        cases elemKids (getattr .kml (serAttrs L ⟨q, vb⟩ attrs) (s% "features")).elems <;>
        simp only [SameE, false_implies]
      · intro h; exact h
      · intro h; exact mask_apply (by simp [maskC, h]) rfl
    · simp only [serStep, hk, if_false]
      exact setAll_same (hL c) ns nss p q vb _ (hg _) _ (fun it h => h) rfl rfl

end Verif
