import Verif.Base
import Verif.Lemmas.Py

/-!
# Induction on values; attribute views
-/

set_option linter.unusedSectionVars false
set_option linter.unusedSimpArgs false

namespace Verif

variable {C F : Type} [DecidableEq C] [PyExt F]

mutual
/-- Induction on values: for an object the hypothesis holds for every attribute
value and for every member of every list attribute. -/
theorem Val.objInd {P : Val C F → Prop}
    (hobj : ∀ c ns nss attrs, (∀ a v, (a, v) ∈ attrs → P v) →
      (∀ a l, (a, .list l) ∈ attrs → ∀ w ∈ l, P w) → P (.obj c ns nss attrs))
    (hother : ∀ v, (∀ c ns nss attrs, v ≠ .obj c ns nss attrs) → P v) : ∀ v, P v
  | .obj c ns nss attrs => hobj c ns nss attrs (Val.objIndAttrs hobj hother attrs)
      (Val.objIndAttrsL hobj hother attrs)
  | .none => hother _ (by intro _ _ _ _ h; cases h)
  | .str _ => hother _ (by intro _ _ _ _ h; cases h)
  | .bool _ => hother _ (by intro _ _ _ _ h; cases h)
  | .int _ => hother _ (by intro _ _ _ _ h; cases h)
  | .float _ => hother _ (by intro _ _ _ _ h; cases h)
  | .enum _ _ => hother _ (by intro _ _ _ _ h; cases h)
  | .dt _ => hother _ (by intro _ _ _ _ h; cases h)
  | .floats _ => hother _ (by intro _ _ _ _ h; cases h)
  | .coords _ => hother _ (by intro _ _ _ _ h; cases h)
  | .whens _ => hother _ (by intro _ _ _ _ h; cases h)
  | .items _ => hother _ (by intro _ _ _ _ h; cases h)
  | .list _ => hother _ (by intro _ _ _ _ h; cases h)
theorem Val.objIndAttrs {P : Val C F → Prop}
    (hobj : ∀ c ns nss attrs, (∀ a v, (a, v) ∈ attrs → P v) →
      (∀ a l, (a, .list l) ∈ attrs → ∀ w ∈ l, P w) → P (.obj c ns nss attrs))
    (hother : ∀ v, (∀ c ns nss attrs, v ≠ .obj c ns nss attrs) → P v) :
    ∀ attrs : List (Str × Val C F), ∀ a v, (a, v) ∈ attrs → P v
  | [], _, _, h => by cases h
  | (b, w) :: r, a, v, h => by
    have h1 := Val.objInd hobj hother w
    have h2 := Val.objIndAttrs hobj hother r
    rcases List.mem_cons.mp h with h | h
    · rw [(Prod.mk.inj h).2]; exact h1
    · exact h2 a v h
theorem Val.objIndAttrsL {P : Val C F → Prop}
    (hobj : ∀ c ns nss attrs, (∀ a v, (a, v) ∈ attrs → P v) →
      (∀ a l, (a, .list l) ∈ attrs → ∀ w ∈ l, P w) → P (.obj c ns nss attrs))
    (hother : ∀ v, (∀ c ns nss attrs, v ≠ .obj c ns nss attrs) → P v) :
    ∀ attrs : List (Str × Val C F), ∀ a l, (a, .list l) ∈ attrs → ∀ w ∈ l, P w
  | [], _, _, h => by cases h
  | (b, w) :: r, a, l, h => by
    have h1 := Val.objIndElems hobj hother w
    have h2 := Val.objIndAttrsL hobj hother r
    rcases List.mem_cons.mp h with h | h
    · exact h1 l (Prod.mk.inj h).2.symm
    · exact h2 a l h
theorem Val.objIndElems {P : Val C F → Prop}
    (hobj : ∀ c ns nss attrs, (∀ a v, (a, v) ∈ attrs → P v) →
      (∀ a l, (a, .list l) ∈ attrs → ∀ w ∈ l, P w) → P (.obj c ns nss attrs))
    (hother : ∀ v, (∀ c ns nss attrs, v ≠ .obj c ns nss attrs) → P v) :
    ∀ v : Val C F, ∀ l, v = .list l → ∀ w ∈ l, P w
  | .list l, l', h => by
    have h1 := Val.objIndList hobj hother l
    cases h; exact h1
  | .obj _ _ _ _, _, h => by cases h
  | .none, _, h => by cases h
  | .str _, _, h => by cases h
  | .bool _, _, h => by cases h
  | .int _, _, h => by cases h
  | .float _, _, h => by cases h
  | .enum _ _, _, h => by cases h
  | .dt _, _, h => by cases h
  | .floats _, _, h => by cases h
  | .coords _, _, h => by cases h
  | .whens _, _, h => by cases h
  | .items _, _, h => by cases h
theorem Val.objIndList {P : Val C F → Prop}
    (hobj : ∀ c ns nss attrs, (∀ a v, (a, v) ∈ attrs → P v) →
      (∀ a l, (a, .list l) ∈ attrs → ∀ w ∈ l, P w) → P (.obj c ns nss attrs))
    (hother : ∀ v, (∀ c ns nss attrs, v ≠ .obj c ns nss attrs) → P v) :
    ∀ l : List (Val C F), ∀ w ∈ l, P w
  | [], _, h => by cases h
  | v :: r, w, h => by
    have h1 := Val.objInd hobj hother v
    have h2 := Val.objIndList hobj hother r
    rcases List.mem_cons.mp h with h | h
    · rw [h]; exact h1
    · exact h2 w h
end

/-- `getattr(obj, a, None)` on the instance dictionary. -/
def attrOf (a : Str) (attrs : List (Str × Val C F)) : Val C F := (dget a attrs).getD .none

omit [DecidableEq C] [PyExt F] in
theorem attrOf_mem {a : Str} {attrs : List (Str × Val C F)} {v : Val C F} (h : attrOf a attrs = v)
    (hv : v ≠ .none) : (a, v) ∈ attrs := by
  unfold attrOf at h
  cases hd : dget a attrs with
  | none => rw [hd] at h; exact absurd h.symm hv
  | some w => rw [hd] at h; simp at h; subst h; exact dget_mem hd

/-! ## `info` -/

theorem infoAttrs_eq (L : Lib C) (attrs : List (Str × Val C F)) :
    infoAttrs L attrs = attrs.map fun p => (p.1, ⟨p.2, info L p.2, infoElems L p.2⟩) := by
  induction attrs with
  | nil => simp [infoAttrs]
  | cons p r ih => obtain ⟨a, v⟩ := p; simp only [infoAttrs, ih, List.map_cons]

theorem infoList_eq (L : Lib C) (l : List (Val C F)) : infoList L l = l.map (info L) := by
  induction l with
  | nil => simp [infoList]
  | cons v r ih => simp only [infoList, ih, List.map_cons]

theorem infoElems_list (L : Lib C) (l : List (Val C F)) : infoElems L (.list l) = l.map (info L) := by
  simp only [infoElems, infoList_eq]

theorem infoElems_none (L : Lib C) : infoElems L (.none : Val C F) = [] := by simp only [infoElems]

theorem info_obj (L : Lib C) (c : C) (ns : Str) (nss : NsMap) (attrs : List (Str × Val C F)) :
    info L (.obj c ns nss attrs) = infoStep (L.info c) (infoAttrs L attrs) := by simp only [info]

theorem dget_map_kv {γ : Type} (f : Val C F → γ) (a : Str) (attrs : List (Str × Val C F)) :
    dget a (attrs.map fun p => (p.1, f p.2)) = (dget a attrs).map f := by
  induction attrs with
  | nil => rfl
  | cons p r ih =>
    obtain ⟨b, v⟩ := p
    simp only [List.map_cons, dget]
    split
    · rfl
    · exact ih

/-- The view of an attribute. -/
theorem viewOf_infoAttrs (L : Lib C) (a : Str) (attrs : List (Str × Val C F)) :
    viewOf a (infoAttrs L attrs) =
      ⟨attrOf a attrs, info L (attrOf a attrs), infoElems L (attrOf a attrs)⟩ := by
  rw [infoAttrs_eq, viewOf, dget_map_kv (fun v => (⟨v, info L v, infoElems L v⟩ : View C F))]
  unfold attrOf
  cases dget a attrs with
  | none => simp [View.missing, info, infoElems]
  | some v => rfl

/-! ## `ser` -/

theorem serAttrs_eq (L : Lib C) (o : Opts) (attrs : List (Str × Val C F)) :
    serAttrs L o attrs = attrs.map fun p => (p.1, ⟨p.2, truthy L p.2, ser L o p.2, serMembers L o p.2⟩) := by
  induction attrs with
  | nil => simp [serAttrs]
  | cons p r ih => obtain ⟨a, v⟩ := p; simp only [serAttrs, ih, List.map_cons]

theorem serList_eq (L : Lib C) (o : Opts) (l : List (Val C F)) :
    serList L o l = l.map fun v => (truthy L v, ser L o v) := by
  induction l with
  | nil => simp [serList]
  | cons v r ih => simp only [serList, ih, List.map_cons]

theorem serMembers_list (L : Lib C) (o : Opts) (l : List (Val C F)) :
    serMembers L o (.list l) = l.map fun v => (truthy L v, ser L o v) := by
  simp only [serMembers, serList_eq]

theorem ser_obj (L : Lib C) (o : Opts) (c : C) (ns : Str) (nss : NsMap) (attrs : List (Str × Val C F)) :
    ser L o (.obj c ns nss attrs) = serStep L o c ns nss (serAttrs L o attrs) := by simp only [ser]

/-- The writing view of a value. -/
def sview (L : Lib C) (o : Opts) (v : Val C F) : SView C F :=
  ⟨v, truthy L v, ser L o v, serMembers L o v⟩

theorem dget_serAttrs (L : Lib C) (o : Opts) (a : Str) (attrs : List (Str × Val C F)) :
    dget a (serAttrs L o attrs) = (dget a attrs).map (sview L o) := by
  rw [serAttrs_eq]
  exact dget_map_kv (sview L o) a attrs

theorem dget_serAttrs_getD (L : Lib C) (o : Opts) (a : Str) (attrs : List (Str × Val C F)) :
    (dget a (serAttrs L o attrs)).getD .missing = sview L o (attrOf a attrs) := by
  rw [dget_serAttrs]
  unfold attrOf
  cases dget a attrs with
  | none => simp [sview, SView.missing, truthy, info, Info.plain, ser, serMembers]
  | some v => rfl

/-- The stored track items of an object. -/
def itemsOf' (attrs : List (Str × Val C F)) : List (TrackItem F) :=
  match attrOf (s% "track_items") attrs with
  | .items l => l
  | _ => []

theorem storedItems_serAttrs (L : Lib C) (o : Opts) (attrs : List (Str × Val C F)) :
    storedItems (serAttrs L o attrs) = itemsOf' attrs := by
  unfold storedItems itemsOf' attrOf
  rw [dget_serAttrs]
  cases dget (s% "track_items") attrs with
  | none => rfl
  | some v => cases v <;> rfl

/-- The value `getattr(obj, a, None)` seen by the writers, on the object. -/
def propOf (sp : Special) (attrs : List (Str × Val C F)) (a : Str) : Val C F :=
  if sp = .track ∧ a = s% "whens" then .whens (trackWhens (itemsOf' attrs))
  else if sp = .track ∧ a = s% "coords" then .coords (trackCoords (itemsOf' attrs))
  else if sp = .track ∧ a = s% "angles" then .coords (trackAngles (itemsOf' attrs))
  else attrOf a attrs

theorem getattr_serAttrs (L : Lib C) (o : Opts) (sp : Special) (attrs : List (Str × Val C F)) (a : Str) :
    getattr sp (serAttrs L o attrs) a =
      if sp = .track ∧ (a = s% "whens" ∨ a = s% "coords" ∨ a = s% "angles") then
        .prop (propOf sp attrs a)
      else sview L o (propOf sp attrs a) := by
  unfold getattr propOf
  rw [storedItems_serAttrs, dget_serAttrs_getD]
  by_cases h : sp = .track
  · subst h
    by_cases h1 : a = s% "whens"
    · subst h1; simp
    · by_cases h2 : a = s% "coords"
      · subst h2; simp
      · by_cases h3 : a = s% "angles"
        · subst h3; simp
        · simp [h1, h2, h3]
  · simp [h]

theorem getattr_v (L : Lib C) (o : Opts) (sp : Special) (attrs : List (Str × Val C F)) (a : Str) :
    (getattr sp (serAttrs L o attrs) a).v = propOf sp attrs a := by
  rw [getattr_serAttrs]
  split <;> rfl

end Verif
